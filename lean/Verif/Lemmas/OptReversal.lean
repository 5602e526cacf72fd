import Verif.Lemmas.OptMap
import Verif.Props.OptRun
import Verif.Props.Reversal
import Verif.Spec.OptReversal

/-!
# Lemmas: an optimization with the opposite field
-/

namespace Qsc.OptReversal
open Qsc.Netcdf Qsc.Single Qsc.Toml Qsc.Spec.Single Qsc.OptState Qsc.OptRun Qsc.Reversal Qsc.Spec.OptRun

/-- A member of the given name with the opposite field. -/
noncomputable def turn (p : String × Data ℝ) : String × Data ℝ :=
  (p.1, match p.2 with
    | .flts l => .flts (l.map (sgn p.1 * ·))
    | d => d)

theorem scalars_turn (l : List (String × ℝ)) :
    asScalars (l.map fun p => (p.1, sgn p.1 * p.2)) = (asScalars l).map turn := by
  simp [asScalars, turn, Function.comp_def]

theorem vectors_turn (n : Nat) {l : List (String × (Nat → ℝ))} (h : ∀ p ∈ l, p.1 ∉ Spec.Reversal.reversed) :
    (asVectors n l).map turn = asVectors n l := by
  unfold asVectors
  rw [List.map_map]
  refine List.map_congr_left fun p hp => ?_
  simp [turn, sgn, h p hp]

theorem results_rev (n : Nat) (r : Result ℝ) :
    results realOps n (revResult r) = (results realOps n r).map turn := by
  have h1 : results1 realOps n (revResult r) = (results1 realOps n r).map turn := by
    unfold results1
    rw [scalars1_rev, profiles1_rev, scalars_turn]
    simp only [List.map_append]
    rw [vectors_turn n (l := profiles1 realOps r) (by simp [profiles1, Spec.Reversal.reversed])]
    have e : tensor3 n (fun j => R1.gradB (revResult r).cfg (revResult r).r1 j)
        = (tensor3 n fun j => R1.gradB r.cfg r.r1 j).map (-1 * ·) := by
      unfold tensor3
      rw [List.map_map]
      exact List.map_congr_left fun t _ => gradB_rev _ _ _ _ _
    simp only [e]
    congr 1
    simp [turn, sgn, Spec.Reversal.reversed, revResult, revAxis]
  have h2 : ∀ d : Second ℝ, results2 realOps n (revSecond d) = (results2 realOps n d).map turn := by
    intro d
    unfold results2
    rw [scalars2_rev, profiles2_rev, scalars_turn]
    simp only [List.map_append]
    rw [vectors_turn n (l := profiles2 realOps d) (by simp [profiles2, Spec.Reversal.reversed])]
    have e : tensor4 n (fun j => GradGradB.main (.of (revSecond d).inp (revSecond d).r2 j))
        = (tensor4 n fun j => GradGradB.main (.of d.inp d.r2 j)).map (-1 * ·) := by
      unfold tensor4
      rw [List.map_map]
      refine List.map_congr_left fun t _ => ?_
      change GradGradB.main (GradGradB.At.of (revIn d.inp) d.r2 _) _ _ _ = _
      rw [at_rev, main_rev]
      rfl
    simp only [e]
    simp [turn, sgn, Spec.Reversal.reversed]
  have h3 : ∀ (i : R2.In ℝ) (t : R2.R2p1 ℝ), results3 n (revIn i) t = (results3 n i t).map turn := by
    intro i t
    unfold results3
    rw [List.map_append, vectors_turn n (l := profiles3 i t) (by simp [profiles3, Spec.Reversal.reversed]), ← scalars_turn]
    simp [scalars3, sgn, Spec.Reversal.reversed, profiles3, revIn, revCfg]
  unfold results
  rw [h1, List.map_append]
  congr 1
  cases hs : r.second with
  | none => simp [revResult, hs]
  | some d =>
    simp only [revResult, hs, Option.map_some, List.map_append, h2]
    congr 1
    simp only [revSecond]
    cases d.third with
    | none => rfl
    | some t => exact h3 d.inp t

theorem lookup_turn (l : List (String × Data ℝ)) (a : String) :
    (l.map turn).lookup a = (l.lookup a).map fun d => (turn (a, d)).2 := by
  induction l with
  | nil => rfl
  | cons p l ih =>
    obtain ⟨b, d⟩ := p
    rw [List.map_cons, show turn (b, d) = (b, (turn (b, d)).2) from rfl, List.lookup_cons, List.lookup_cons]
    by_cases h : a = b
    · subst h
      simp
    · have : (a == b) = false := by simpa using h
      simp only [this, ih]

theorem elem_rev (r : Result ℝ) (a : String) : elem realOps (revResult r) a = fun j => sgn a * elem realOps r a j := by
  funext j
  unfold elem
  rw [results_rev, show (revResult r).cfg.nphi = r.cfg.nphi from rfl, lookup_turn]
  cases (results realOps r.cfg.nphi r).lookup a with
  | none => simp
  | some d =>
    cases d with
    | flts l => 
      simp only [Option.map_some, turn, List.getD_eq_getElem?_getD, List.getElem?_map]
      cases l[j]? <;> simp
    | _ => simp [turn]

/-- The results that enter the residuals, with opposite derivatives of the field. -/
noncomputable def negated (ph : OptResid.Phys ℝ) : OptResid.Phys ℝ :=
  { ph with
    grad_B_tensor := fun j => -ph.grad_B_tensor j, grad_grad_B_tensor := fun j => -ph.grad_grad_B_tensor j }

theorem physOf_rev (r : Result ℝ) : physOf realOps (revResult r) = negated (physOf realOps r) := by
  simp only [physOf, elem_rev, negated]
  simp [sgn, Spec.Reversal.reversed, revResult, revCfg]

open Qsc.Spec.OptResid in
theorem component_negated {b : Block} (h : ¬ Spec.OptReversal.flips b = true) (ph : OptResid.Phys ℝ) (k j : Nat) :
    component (negated ph) k b j = component ph k b j := by
  unfold component
  split <;> first | rfl | exact absurd rfl h

open Qsc.Spec.OptResid in
theorem value_negated (t : OptResid.Targets ℝ) (ph : OptResid.Phys ℝ) (b : Block) (m : Nat) :
    value realRes t (negated ph) b m
      = if Spec.OptReversal.flips b then -value realRes t ph b m else value realRes t ph b m := by
  cases b
  case grad_B =>
    rw [if_pos (show Spec.OptReversal.flips .grad_B = true from rfl)]
    simp only [value, component]
    exact mul_neg _ _
  case grad_grad_B =>
    rw [if_pos (show Spec.OptReversal.flips .grad_grad_B = true from rfl)]
    simp only [value, component]
    exact mul_neg _ _
  all_goals
    rw [if_neg (by simp [Spec.OptReversal.flips])]
    first
    | rfl
    | (simp only [value]
       rw [component_negated (by simp [Spec.OptReversal.flips])]
       rfl)

theorem value_sq (t : OptResid.Targets ℝ) (ph : OptResid.Phys ℝ) (b : Spec.OptResid.Block) (m : Nat) :
    Spec.OptResid.value realRes t (negated ph) b m ^ 2 = Spec.OptResid.value realRes t ph b m ^ 2 := by
  rw [value_negated]
  split
  · exact neg_sq _
  · rfl

theorem rank_onto (i : Nat) (h : i < 21) : ∃ b : Spec.OptResid.Block, b.rank = i := by
  interval_cases i
  exacts [⟨.B20, rfl⟩, ⟨.iota, rfl⟩, ⟨.elongation, rfl⟩, ⟨.curvature, rfl⟩, ⟨.R0, rfl⟩, ⟨.d2_volume_d_psi2, rfl⟩,
    ⟨.DMerc_times_r2, rfl⟩, ⟨.XY2, rfl⟩, ⟨.XY2Prime, rfl⟩, ⟨.XY2PrimePrime, rfl⟩, ⟨.Z2, rfl⟩, ⟨.Z2Prime, rfl⟩,
    ⟨.XY3, rfl⟩, ⟨.XY3Prime, rfl⟩, ⟨.XY3PrimePrime, rfl⟩, ⟨.grad_B, rfl⟩, ⟨.grad_grad_B, rfl⟩, ⟨.r_singularity, rfl⟩,
    ⟨.axis_length, rfl⟩, ⟨.standard_deviation_of_R, rfl⟩, ⟨.B20_mean, rfl⟩]

/-- The objective and its terms do not change. -/
theorem terms_rev (w : OptResid.Weights ℝ) (t : OptResid.Targets ℝ) (r : Result ℝ) :
    (termsAt realOps w t (revResult r)).1 = (termsAt realOps w t r).1 ∧
    ∀ i, i < 21 → (termsAt realOps w t (revResult r)).2.getD i 0 = (termsAt realOps w t r).2.getD i 0 := by
  obtain ⟨⟨es, a1, a2⟩, a3⟩ := terms_eq w t r
  obtain ⟨⟨es', b1, b2⟩, b3⟩ := terms_eq w t (revResult r)
  rw [physOf_rev] at b1 b2
  obtain rfl : es' = es := OptResid.entries_determined b1 a1
  refine ⟨?_, fun i hi => ?_⟩
  · rw [a2, b2]
    simp only [mul_pow, value_sq]
  · obtain ⟨b, rfl⟩ := rank_onto i hi
    rw [a3, b3, physOf_rev]
    simp only [value_sq]
    rfl

theorem termNames_index : ∀ p ∈ termNames.zipIdx, p.2 < 21 := by decide +kernel

theorem resultNames_kept : ∀ p ∈ resultNames, p.2 ∉ Spec.Reversal.reversed := by decide +kernel

/-- What is recorded does not change. -/
theorem columns_rev (w : OptResid.Weights ℝ) (t : OptResid.Targets ℝ) (c : OptLoop.Rec ℝ (Result ℝ)) :
    columns realOps w t (OptLoop.mapRec revResult c) = columns realOps w t c := by
  obtain ⟨st, x, q, r⟩ := c
  obtain ⟨h1, h2⟩ := terms_rev w t r
  have e1 : (termNames.zipIdx.map fun p => (p.1, (termsAt realOps w t (revResult r)).2.getD p.2 0))
      = termNames.zipIdx.map fun p => (p.1, (termsAt realOps w t r).2.getD p.2 0) :=
    List.map_congr_left fun p hp => by rw [h2 p.2 (termNames_index p hp)]
  have e2 : (resultNames.map fun p => (p.1, elem realOps (revResult r) p.2 0))
      = resultNames.map fun p => (p.1, elem realOps r p.2 0) :=
    List.map_congr_left fun p hp => by
      rw [elem_rev]
      simp [sgn, resultNames_kept p hp]
  unfold columns OptLoop.mapRec
  dsimp only
  rw [h1, e1, e2]

theorem physics_rev {L : Lib ℝ} (ho : L.ops = realOps) {q q' : QscIn ℝ} (h : Spec.Reversal.Opposite q q')
    (c : Config ℝ) (n : Nat) : physics L q' c n = (physics L q c n).map revResult := by
  have I : InputRel (atPoint q c n) (atPoint q' c n) := by
    unfold Spec.Reversal.Opposite at h
    generalize q'.verbose = w at h
    subst h
    exact ⟨rfl, rfl, rfl, rfl, rfl, rfl, rfl, rfl, rfl, rfl, rfl, rfl, rfl, rfl, rfl, rfl⟩
  unfold physics
  rw [(inputRel h).order]
  cases Setup.validate q.order_r_option with
  | error e => rfl
  | ok ord =>
    dsimp only
    rw [calculate_rev ho I]
    cases Single.calculate L (atPoint q c n) n ord <;> rfl

theorem world_rev {L : Lib ℝ} (ho : L.ops = realOps) (gsl : Nat → (p : Nat) → OptLoop.Gsl ℝ p) {q q' : QscIn ℝ}
    (h : Spec.Reversal.Opposite q q') (w : OptResid.Weights ℝ) :
    OptLoop.EnvMap revResult ((world L gsl q).env w) ((world L gsl q').env w) :=
  ⟨rfl, rfl, fun c n => physics_rev ho h c n⟩

theorem histOk_map {M : Nat} {st : OptLoop.St ℝ (Result ℝ)} (h : OptLoop.HistOk M st) :
    OptLoop.HistOk M (OptLoop.mapSt revResult st) := by
  refine ⟨?_, ?_, h.le⟩
  · simp [OptLoop.mapSt, h.hist, Function.comp_def]
  · simpa [OptLoop.mapSt] using h.len

theorem opposite_symm {q q' : QscIn ℝ} (h : Spec.Reversal.Opposite q q') : Spec.Reversal.Opposite q' q := by
  unfold Spec.Reversal.Opposite at h ⊢
  generalize q'.verbose = w at h
  subst h
  simp

theorem opposite_at {q q' : QscIn ℝ} (h : Spec.Reversal.Opposite q q') (c : Config ℝ) (n : Nat) :
    Spec.Reversal.Opposite (configuration q c n) (configuration q' c n) := by
  unfold Spec.Reversal.Opposite at h ⊢
  generalize q'.verbose = w at h
  subst h
  rfl

end Qsc.OptReversal
