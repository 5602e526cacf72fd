import Verif.Lemmas.Quartic

/-!
# The quartic root finder (C46)
-/

namespace Qsc.Quartic

open Qsc.Spec.RSing Matrix

/-- **C46.** The characteristic polynomial of the matrix given to LAPACK, read column by column, is the
input polynomial divided by its leading coefficient. -/
theorem charpoly {K : Type} [Field K] (c : Nat → K) (h : c 0 ≠ 0) (z : K) :
    (z • (1 : Matrix (Fin 4) (Fin 4) K) - stored (companion c)).det = quartic c z / c 0 := by
  rw [det4]
  simp [stored, companion, quartic, Matrix.one_apply]
  field_simp
  ring

/-- Over the complex numbers, for real coefficients. -/
theorem charpoly_complex (c : Nat → ℝ) (h : c 0 ≠ 0) (z : ℂ) :
    (z • (1 : Matrix (Fin 4) (Fin 4) ℂ) - (stored (companion c)).map Complex.ofReal).det =
      quartic (fun k => (c k : ℂ)) z / c 0 := by
  have h' : (fun k => (c k : ℂ)) 0 ≠ 0 := Complex.ofReal_ne_zero.2 h
  rw [← charpoly (fun k => (c k : ℂ)) h' z]
  congr 2
  ext a b
  fin_cases a <;> fin_cases b <;> simp [stored, companion]

/-- **C46.** A complex number is an eigenvalue of the matrix given to LAPACK exactly if it is a root of
the quartic. -/
theorem eigenvalue_iff_root (c : Nat → ℝ) (h : c 0 ≠ 0) (z : ℂ) :
    (∃ v : Fin 4 → ℂ, v ≠ 0 ∧ ((stored (companion c)).map Complex.ofReal) *ᵥ v = z • v) ↔
      quartic (fun k => (c k : ℂ)) z = 0 := by
  have h' : ((c 0 : ℝ) : ℂ) ≠ 0 := Complex.ofReal_ne_zero.2 h
  have key := (Matrix.exists_mulVec_eq_zero_iff
    (M := z • (1 : Matrix (Fin 4) (Fin 4) ℂ) - (stored (companion c)).map Complex.ofReal))
  rw [charpoly_complex c h, div_eq_zero_iff, or_iff_left h'] at key
  rw [← key]
  refine exists_congr fun v => and_congr_right fun _ => ?_
  rw [Matrix.sub_mulVec, Matrix.smul_mulVec, Matrix.one_mulVec, sub_eq_zero]
  exact eq_comm

/-- **C46.** If LAPACK returns the eigenvalues of the matrix it was given, the numbers returned are the
roots of the quartic with their multiplicities. -/
theorem roots_exact (geev : Geev ℝ) (c : Nat → ℝ) (h : c 0 ≠ 0) {w : (Nat → ℝ) × (Nat → ℝ)}
    (hg : geev (companion c) = some w) (hs : IsSpectrum (stored (companion c)) w) :
    roots geev c = .ok w ∧ ∀ z : ℂ, quartic (fun k => (c k : ℂ)) z =
      c 0 * ((z - ⟨w.1 0, w.2 0⟩) * (z - ⟨w.1 1, w.2 1⟩) * (z - ⟨w.1 2, w.2 2⟩) * (z - ⟨w.1 3, w.2 3⟩)) := by
  refine ⟨by rw [roots, hg], fun z => ?_⟩
  have h' : ((c 0 : ℝ) : ℂ) ≠ 0 := Complex.ofReal_ne_zero.2 h
  rw [← hs z, charpoly_complex c h]
  field_simp

/-- Every real root of the quartic is among the numbers returned, with imaginary part zero, and every
number returned is a root. -/
theorem real_roots (c : Nat → ℝ) (h : c 0 ≠ 0) {w : (Nat → ℝ) × (Nat → ℝ)}
    (hs : IsSpectrum (stored (companion c)) w) :
    (∀ x : ℝ, quartic c x = 0 → ∃ j < 4, w.1 j = x ∧ w.2 j = 0) ∧
      ∀ j < 4, quartic (fun k => (c k : ℂ)) ⟨w.1 j, w.2 j⟩ = 0 := by
  have h' : ((c 0 : ℝ) : ℂ) ≠ 0 := Complex.ofReal_ne_zero.2 h
  have key := fun z => charpoly_complex c h z
  have hq : ∀ z : ℂ, quartic (fun k => (c k : ℂ)) z = c 0 * ((z - ⟨w.1 0, w.2 0⟩) * (z - ⟨w.1 1, w.2 1⟩) *
      (z - ⟨w.1 2, w.2 2⟩) * (z - ⟨w.1 3, w.2 3⟩)) := by
    intro z; rw [← hs z, key]; field_simp
  constructor
  · intro x hx
    have hz : quartic (fun k => (c k : ℂ)) (x : ℂ) = 0 := by
      have : quartic (fun k => (c k : ℂ)) (x : ℂ) = ((quartic c x : ℝ) : ℂ) := by
        simp [quartic]
      rw [this, hx]; rfl
    rw [hq] at hz
    have hz := (mul_eq_zero.1 hz).resolve_left h'
    have fin : ∀ j, (x : ℂ) - ⟨w.1 j, w.2 j⟩ = 0 → w.1 j = x ∧ w.2 j = 0 := by
      intro j e
      have e := sub_eq_zero.1 e
      exact ⟨(congrArg Complex.re e).symm, (congrArg Complex.im e).symm⟩
    rcases mul_eq_zero.1 hz with hz | hz
    · rcases mul_eq_zero.1 hz with hz | hz
      · rcases mul_eq_zero.1 hz with hz | hz
        · exact ⟨0, by norm_num, fin 0 hz⟩
        · exact ⟨1, by norm_num, fin 1 hz⟩
      · exact ⟨2, by norm_num, fin 2 hz⟩
    · exact ⟨3, by norm_num, fin 3 hz⟩
  · intro j hj
    rw [hq]
    interval_cases j <;> simp

/-- A failure of LAPACK is an exception, and nothing else is. -/
theorem roots_error (geev : Geev ℝ) (c : Nat → ℝ) :
    roots geev c = .error "LAPACK error in *geev" ↔ geev (companion c) = none := by
  unfold roots
  cases geev (companion c) <;> simp

/-- `(w^2 - 1)(w^2 + 4)`, times 3. -/
def sampleC : Nat → ℝ
  | 0 => 3
  | 2 => 9
  | 4 => -12
  | _ => 0

example : sampleC 0 ≠ 0 ∧ IsSpectrum (stored (companion sampleC))
    (fun | 0 => 1 | 1 => -1 | _ => 0, fun | 2 => 2 | 3 => -2 | _ => 0) := by
  have h : sampleC 0 ≠ 0 := by norm_num [sampleC]
  refine ⟨h, fun z => ?_⟩
  rw [charpoly_complex sampleC h]
  have e0 : (⟨1, 0⟩ : ℂ) = 1 := rfl
  have e1 : (⟨-1, 0⟩ : ℂ) = -1 := by apply Complex.ext <;> simp
  have e2 : (⟨0, 2⟩ : ℂ) = 2 * Complex.I := by apply Complex.ext <;> simp
  have e3 : (⟨0, -2⟩ : ℂ) = -(2 * Complex.I) := by apply Complex.ext <;> simp
  simp only [e0, e1, e2, e3, quartic, sampleC]
  push_cast
  linear_combination (4 * (z - 1) * (z + 1)) * Complex.I_sq

end Qsc.Quartic
