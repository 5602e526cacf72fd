import Verif.Lemmas.GradGradB

/-!
# The traces of the grad grad B tensor
-/

namespace Qsc.GradGradB

/-- The product rule for the area relations of second order and for `kap X1c`. -/
structure SecondRule (a : At ℝ) : Prop where
  cos : -a.dX1c * a.Y2c - a.X1c * a.dY2c + a.dX1c * a.Y20 + a.X1c * a.dY20 + a.dX2s * a.Y1s + a.X2s * a.dY1s +
    a.dX2c * a.Y1c + a.X2c * a.dY1c - a.dX20 * a.Y1c - a.X20 * a.dY1c = 0
  sin : a.dX1c * a.Y2s + a.X1c * a.dY2s + a.dX2c * a.Y1s + a.X2c * a.dY1s - a.dX2s * a.Y1c - a.X2s * a.dY1c +
    a.dX20 * a.Y1s + a.X20 * a.dY1s + (a.dX1c * a.Y1s + a.X1c * a.dY1s) * (a.kap * a.X1c) / 2 +
    a.X1c * a.Y1s * (a.dkap * a.X1c + a.kap * a.dX1c) / 2 = 0
  kap : a.dkap * a.X1c + a.kap * a.dX1c = 0

section
variable {a : At ℝ} {eta : ℝ}

theorem SecondRule.dY2c (w : SecondRule a) (h : First a eta) : a.dY2c = (-a.dX1c * a.Y2c + a.dX1c * a.Y20 +
    a.X1c * a.dY20 + a.dX2s * a.Y1s + a.X2s * a.dY1s +
    a.dX2c * a.Y1c + a.X2c * a.dY1c - a.dX20 * a.Y1c - a.X20 * a.dY1c) / a.X1c := by
  rw [eq_div_iff h.X1c]; linear_combination -w.cos

theorem SecondRule.dY2s (w : SecondRule a) (s : Smooth1 a) (h : First a eta) :
    a.dY2s = -(a.dX1c * a.Y2s + a.dX2c * a.Y1s + a.X2c * a.dY1s - a.dX2s * a.Y1c - a.X2s * a.dY1c +
    a.dX20 * a.Y1s + a.X20 * a.dY1s) / a.X1c := by
  rw [eq_div_iff h.X1c]
  linear_combination w.sin - (a.kap * a.X1c) / 2 * s.one - a.X1c * a.Y1s / 2 * w.kap

theorem SecondRule.dkap (w : SecondRule a) (h : First a eta) : a.dkap = -(eta * a.dX1c) / a.X1c ^ 2 := by
  have := h.X1c
  rw [eq_div_iff (pow_ne_zero 2 this)]
  linear_combination a.X1c * w.kap - a.dX1c * h.kap

theorem trace0 (h : First a eta) (q : Second a) (s : Smooth a) (w : SecondRule a) :
    alt000 a + alt011 a + alt022 a = 0 := by
  simp only [alt000, alt011, alt022, w.dkap h, w.dY2s s.toSmooth1 h, w.dY2c h, q.Y2s h, q.Y2c h, h.Y1s, h.kap',
    s.dY1s h]
  have := h.X1c
  have := h.lp
  have := h.B0
  rcases h.sG with g | g <;> rcases h.spsi with g' | g' <;> simp only [g, g'] <;> field_simp <;> ring

theorem trace1 (h : First a eta) (q : Second a) (s : Smooth a) (w : SecondRule a) :
    alt100 a + alt111 a + alt122 a = 0 := by
  simp only [alt100, alt111, alt122, w.dkap h, w.dY2s s.toSmooth1 h, w.dY2c h, q.Y2s h, q.Y2c h, h.Y1s, h.kap',
    s.dY1s h]
  have := h.X1c
  have := h.lp
  have := h.B0
  rcases h.sG with g | g <;> rcases h.spsi with g' | g' <;> simp only [g, g'] <;> field_simp <;> ring

theorem trace2 (h : First a eta) (s : Smooth a) :
    alt200 a + alt211 a + alt222 a = 0 := by
  simp only [alt200, alt211, alt222, h.Y1s, h.kap', s.dY1s h, s.d2Y1s h]
  have := h.X1c
  have := h.lp
  have := h.B0
  rcases h.sG with g | g <;> rcases h.spsi with g' | g' <;> simp only [g, g'] <;> field_simp <;> ring

end

end Qsc.GradGradB
