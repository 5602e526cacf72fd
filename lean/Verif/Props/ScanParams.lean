import Verif.Lemmas.ScanParams

/-!
# Property C24: the scanned parameters of a grid point
-/

namespace Qsc.ScanParams
open Qsc.Spec.ScanParams

variable {F : Type}

open Classical in
/-- **C24 (frame).** If setting one scanned parameter succeeds, then in every stage it concerns the
place with that name has the new value, and everything else is unchanged. -/
theorem param_exact (nm : Nat) (ss ss' : List (Stage F)) (p : Param F)
    (h : setParam nm ss p = .ok ss') :
    ss'.length = ss.length ∧ ∀ j s, ss[j]? = some s → ∃ s', ss'[j]? = some s' ∧
      ∀ x, valueAt s' x =
        if Concerns p.stage j ∧ Names nm p.name x then some p.val else valueAt s x := by
  unfold setParam at h
  by_cases hn : ∃ sl, Names nm p.name sl
  · obtain ⟨sl, hn⟩ := hn
    obtain ⟨l1, l2, _⟩ := loop_ok hn _ _ _ _ h
    refine ⟨l1, fun j s hs => ?_⟩
    obtain ⟨s', hs', hr⟩ := l2 j s hs
    have hj : j < ss.length := (List.getElem?_eq_some_iff.mp hs).1
    refine ⟨s', hs', fun x => ?_⟩
    rw [hr]
    have e : (j ∈ stages p.stage ss.length ∧ x = sl) ↔ (Concerns p.stage j ∧ Names nm p.name x) := by
      rw [mem_stages]
      constructor
      · rintro ⟨⟨a, _⟩, rfl⟩; exact ⟨a, hn⟩
      · rintro ⟨a, b⟩; exact ⟨⟨a, fun _ => hj⟩, Names.unique b hn⟩
    simp only [e]
  · have hn' : ∀ sl, ¬ Names nm p.name sl := fun sl h => hn ⟨sl, h⟩
    cases hst : stages p.stage ss.length with
    | nil =>
      rw [hst] at h
      cases h
      exact ⟨rfl, fun j s hs => ⟨s, hs, fun x => by simp [hn']⟩⟩
    | cons a js =>
      rw [hst, List.foldlM_cons, setOne_unknown hn'] at h
      cases h

/-- **C24 (acceptance).** Setting a parameter succeeds exactly if its stage exists, its name is
known, it is an initial condition only in stage 0, and the axis arrays have the mode. -/
theorem param_ok_iff (nm : Nat) (ss : List (Stage F)) (p : Param F) :
    (∃ ss', setParam nm ss p = .ok ss') ↔ Accepts nm ss p := by
  unfold setParam
  constructor
  · rintro ⟨ss', h⟩
    by_cases hn : ∃ sl, Names nm p.name sl
    · obtain ⟨sl, hn⟩ := hn
      obtain ⟨_, _, l3⟩ := loop_ok hn _ _ _ _ h
      refine ⟨?_, .inr ⟨sl, hn, fun hi j hj hc => ?_, fun j s hc hs => ?_⟩⟩
      · by_cases h0 : p.stage < 0
        · omega
        · obtain ⟨_, s, hs, _⟩ := l3 p.stage.toNat (mem_stages.mpr ⟨.inr (by omega), by omega⟩)
          have := (List.getElem?_eq_some_iff.mp hs).1
          omega
      · exact (l3 j (mem_stages.mpr ⟨hc, fun _ => hj⟩)).1 hi
      · have hj : j < ss.length := (List.getElem?_eq_some_iff.mp hs).1
        obtain ⟨_, s', hs', hr⟩ := l3 j (mem_stages.mpr ⟨hc, fun _ => hj⟩)
        rw [hs] at hs'
        cases hs'
        exact hr
    · have hn' : ∀ sl, ¬ Names nm p.name sl := fun sl h => hn ⟨sl, h⟩
      cases hst : stages p.stage ss.length with
      | nil =>
        unfold stages at hst
        split at hst
        · next h0 =>
          have : ss.length = 0 := by simpa using hst
          exact ⟨by omega, .inl (List.length_eq_zero_iff.mp this)⟩
        · cases hst
      | cons a js =>
        rw [hst, List.foldlM_cons, setOne_unknown hn'] at h
        cases h
  · rintro ⟨h1, h2⟩
    rcases h2 with rfl | ⟨sl, hn, hi, hs⟩
    · have : stages p.stage ([] : List (Stage F)).length = [] := by
        unfold stages
        rw [if_pos (by simpa using h1)]
        rfl
      rw [this]
      exact ⟨[], rfl⟩
    · apply loop_complete hn
      intro j hj
      obtain ⟨hc, hlt⟩ := mem_stages.mp hj
      have hjl : j < ss.length := by
        by_cases h0 : p.stage < 0
        · exact hlt h0
        · rcases hc with hc | hc <;> omega
      refine ⟨fun h => hi h j hjl hc, ss[j], List.getElem?_eq_getElem hjl, ?_⟩
      exact hs j _ hc (List.getElem?_eq_getElem hjl)

/-- **C24 (unknown name).** An unknown name is an exception, whatever the stage (unless a negative
stage is asked for and there is no stage at all). -/
theorem param_unknown_throws (nm : Nat) (ss : List (Stage F)) (p : Param F)
    (hn : ∀ sl, ¬ Names nm p.name sl) (h : ss ≠ [] ∨ 0 ≤ p.stage) :
    setParam nm ss p = .error (.throw "Unrecognized entry in params") := by
  unfold setParam
  cases hst : stages p.stage ss.length with
  | nil =>
    unfold stages at hst
    split at hst
    · next h0 =>
      have h1 : ss.length = 0 := by simpa using hst
      rcases h with h | h
      · exact absurd (List.length_eq_zero_iff.mp h1) h
      · omega
    · cases hst
  | cons a js =>
    rw [List.foldlM_cons, setOne_unknown hn]
    rfl

/-- **C24 (initial condition after stage 0).** An initial condition asked for at a later stage that
exists, for a place that exists, is an exception. -/
theorem param_late_throws (nm : Nat) (ss : List (Stage F)) (p : Param F) (sl : Slot)
    (hn : Names nm p.name sl) (hi : InitialCondition sl) (j : Nat) (hp : p.stage = j) (hj : j ≠ 0)
    (s : Stage F) (hs : ss[j]? = some s) (hr : (valueAt s sl).isSome) :
    ∃ msg, setParam nm ss p = .error (.throw msg) := by
  unfold setParam stages
  rw [if_neg (by omega), hp, Int.toNat_natCast, List.foldlM_cons, setOne_named hn, if_pos hi]
  unfold assignStart
  rw [← write_isSome s p.val] at hr
  obtain ⟨s', hw⟩ := Option.isSome_iff_exists.mp hr
  rw [(assign_ok_iff ss (ss.set j s') j sl p.val).mpr ⟨s, s', hs, hw, rfl⟩]
  dsimp only
  rw [if_pos hj]
  exact ⟨_, rfl⟩

/-- A negative stage ("all stages") for an initial condition is an exception as soon as there are
two stages with that place. -/
theorem param_all_stages_throws (nm : Nat) (s0 s1 : Stage F) (ss : List (Stage F)) (p : Param F)
    (sl : Slot) (hn : Names nm p.name sl) (hi : InitialCondition sl) (hp : p.stage < 0)
    (h0 : (valueAt s0 sl).isSome) (h1 : (valueAt s1 sl).isSome) :
    ∃ msg, setParam nm (s0 :: s1 :: ss) p = .error (.throw msg) := by
  unfold setParam stages
  rw [if_pos hp]
  have e : List.range (s0 :: s1 :: ss).length = 0 :: 1 :: (List.range (ss.length + 2)).drop 2 := by
    show List.range (ss.length + 1 + 1) = _
    simp [List.range_succ_eq_map]
  rw [e, List.foldlM_cons]
  rw [← write_isSome _ p.val] at h0 h1
  obtain ⟨s0', hw0⟩ := Option.isSome_iff_exists.mp h0
  obtain ⟨s1', hw1⟩ := Option.isSome_iff_exists.mp h1
  rw [(setOne_ok_iff hn p.val (s0 :: s1 :: ss) (s0' :: s1 :: ss) 0).mpr
    ⟨fun _ => rfl, s0, s0', rfl, hw0, rfl⟩]
  show ∃ msg, (List.foldlM (setOne nm p.name p.val) (s0' :: s1 :: ss) (1 :: _)) = _
  rw [List.foldlM_cons, setOne_named hn, if_pos hi]
  unfold assignStart
  rw [(assign_ok_iff (s0' :: s1 :: ss) (s0' :: s1' :: ss) 1 sl p.val).mpr ⟨s1, s1', rfl, hw1, rfl⟩]
  exact ⟨_, rfl⟩

open Classical in
/-- The value asked for by a list of parameters, the last one winning. -/
noncomputable def wanted (nm : Nat) (ps : List (Param F)) (j : Nat) (x : Slot) : Option F :=
  ((ps.filter fun p => decide (Concerns p.stage j ∧ Names nm p.name x)).map Param.val).getLast?

open Classical in
/-- **C24 (all parameters).** If all parameters of a grid point can be set, the optimization starts
from the reference settings in which exactly the places named by the parameters are replaced, in
exactly the stages they concern, by the value of the last parameter naming them. -/
theorem all_exact (nm : Nat) (ref ss' : List (Stage F)) (ps : List (Param F))
    (h : setAll nm ref ps = .ok ss') :
    ss'.length = ref.length ∧ ∀ j s, ref[j]? = some s → ∃ s', ss'[j]? = some s' ∧
      ∀ x, valueAt s' x = (wanted nm ps j x).or (valueAt s x) := by
  unfold setAll at h
  induction ps generalizing ref with
  | nil =>
    cases h
    exact ⟨rfl, fun j s hs => ⟨s, hs, fun x => by simp [wanted]⟩⟩
  | cons p ps ih =>
    rw [List.foldlM_cons, bind_ok] at h
    obtain ⟨s1, h1, h2⟩ := h
    obtain ⟨a1, a2⟩ := param_exact nm ref s1 p h1
    obtain ⟨b1, b2⟩ := ih s1 h2
    refine ⟨by rw [b1, a1], fun j s hs => ?_⟩
    obtain ⟨t, ht, hr⟩ := a2 j s hs
    obtain ⟨u, hu, hr'⟩ := b2 j t ht
    refine ⟨u, hu, fun x => ?_⟩
    rw [hr', hr]
    unfold wanted
    by_cases hc : Concerns p.stage j ∧ Names nm p.name x
    · rw [List.filter_cons_of_pos (by simpa using hc), if_pos hc, List.map_cons, List.getLast?_cons]
      cases ((ps.filter fun p => decide (Concerns p.stage j ∧ Names nm p.name x)).map
        Param.val).getLast? <;> simp
    · rw [List.filter_cons_of_neg (by simpa using hc), if_neg hc]

/-- **C24 (defect).** A stage that does not exist is written out of bounds; and the mode numbers
that are recognised count the modes added by Fourier refinement, so scanning an initial amplitude
that the input arrays do not contain (here mode 2 of an axis given by two coefficients, with one
refinement, `axis_nmax_plus_1 = 3`) writes past the end of the array instead of being rejected. -/
theorem out_of_bounds :
    (setParam 3 [(⟨fun _ => 0, [1, 2], [0, 2]⟩ : Stage Int)] ⟨"weight_iota", 1, 5⟩ =
      .error (.undefined "opts index")) ∧
    setParam 3 [(⟨fun _ => 0, [1, 2], [0, 2]⟩ : Stage Int)] ⟨"R0c2", 0, 5⟩ =
      .error (.undefined "axis array index") := by
  constructor
  · rfl
  · have e : "R0c2" = "R0c" ++ toString 2 := rfl
    unfold setParam stages
    rw [if_neg (by decide)]
    show List.foldlM (setOne 3 "R0c2" 5) _ [0] = _
    rw [List.foldlM_cons, e, setOne_R0c 3 2 (by omega) (by omega)]
    rfl

/-- Two stages; a weight for all stages and an initial amplitude for stage 0. -/
example : ∃ ss', setAll 2 [(⟨fun _ => 0, [1, 2], [0, 2]⟩ : Stage Int), ⟨fun _ => 7, [1, 2], [0, 2]⟩]
      [⟨"weight_iota", -1, 5⟩, ⟨"R0c1", 0, 9⟩] = .ok ss' ∧
    (ss'.map fun s => valueAt s (.num "weight_iota")) = [some 5, some 5] ∧
    (ss'.map fun s => valueAt s (.R0c 1)) = [some 9, some 2] ∧
    (ss'.map fun s => valueAt s (.num "weight_B20")) = [some 0, some 7] := by
  have e : "R0c1" = "R0c" ++ toString 1 := rfl
  refine ⟨[⟨fun y => if y = "weight_iota" then 5 else 0, [1, 9], [0, 2]⟩,
    ⟨fun y => if y = "weight_iota" then 5 else 7, [1, 2], [0, 2]⟩], ?_, by decide, by decide, by decide⟩
  unfold setAll
  rw [List.foldlM_cons, bind_ok]
  refine ⟨_, rfl, ?_⟩
  rw [List.foldlM_cons, bind_ok]
  refine ⟨_, ?_, rfl⟩
  unfold setParam stages
  rw [if_neg (by decide)]
  show List.foldlM (setOne 2 "R0c1" 9) _ [0] = _
  rw [List.foldlM_cons, e, setOne_R0c 2 1 (by omega) (by omega)]
  rfl

/-- A later stage for an initial condition: the hypotheses of `param_late_throws`. -/
example : ∃ msg, setParam 1 [(⟨fun _ => 0, [1], [0]⟩ : Stage Int), ⟨fun _ => 0, [1], [0]⟩]
    ⟨"eta_bar", 1, 3⟩ = .error (.throw msg) :=
  param_late_throws 1 _ _ _ .etaBar (by simp [InitialCondition]) 1 rfl (by omega) _ rfl rfl

/-- `sigma0` and `weight_curvature` cannot be scanned. -/
example : (∀ sl, ¬ Names 4 "sigma0" sl) ∧ ∀ sl, ¬ Names 4 "weight_curvature" sl := by
  have key : ∀ x : String, plain x → x ∉ settings → x ≠ "eta_bar" → x ≠ "p2" → x ≠ "B2c" →
      x ≠ "B2s" → ∀ sl, ¬ Names 4 x sl := by
    intro x hp hs h1 h2 h3 h4 sl hn
    cases hn with
    | R0c k => exact plain_ne_R0c hp k rfl
    | Z0s k => exact plain_ne_Z0s hp k rfl
    | setting _ h => exact hs h
    | etaBar => exact h1 rfl
    | p2 => exact h2 rfl
    | B2c => exact h3 rfl
    | B2s => exact h4 rfl
  exact ⟨key _ (by decide) (by decide) (by decide) (by decide) (by decide) (by decide),
    key _ (by decide) (by decide) (by decide) (by decide) (by decide) (by decide)⟩

end Qsc.ScanParams
