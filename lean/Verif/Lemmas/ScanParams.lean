import Verif.Spec.ScanParams
import Std.Data.String.ToNat
import Mathlib.Tactic.Basic

/-!
Lemmas on setting the scanned parameters.
-/

namespace Qsc.ScanParams
open Qsc.Spec.ScanParams

variable {F : Type}

theorem bind_ok {α β ε : Type} (x : Except ε α) (f : α → Except ε β) (b : β) :
    (x >>= f) = .ok b ↔ ∃ a, x = .ok a ∧ f a = .ok b := by
  cases x <;> simp [bind, Except.bind]

theorem R0c_inj {a b : Nat} (h : "R0c" ++ toString a = "R0c" ++ toString b) : a = b := by
  have h := congrArg String.toList h
  rw [String.toList_append, String.toList_append] at h
  exact Nat.repr_injective (String.toList_inj.mp (List.append_cancel_left h))

theorem Z0s_inj {a b : Nat} (h : "Z0s" ++ toString a = "Z0s" ++ toString b) : a = b := by
  have h := congrArg String.toList h
  rw [String.toList_append, String.toList_append] at h
  exact Nat.repr_injective (String.toList_inj.mp (List.append_cancel_left h))

theorem R0c_ne_Z0s (a b : Nat) : "R0c" ++ toString a ≠ "Z0s" ++ toString b := by
  intro h
  have h := congrArg String.toList h
  rw [String.toList_append, String.toList_append,
    show "R0c".toList = ['R', '0', 'c'] from rfl, show "Z0s".toList = ['Z', '0', 's'] from rfl] at h
  simp at h

/-- A name that does not start with `R` or `Z`. -/
def plain (x : String) : Prop := x.toList.head? ≠ some 'R' ∧ x.toList.head? ≠ some 'Z'

instance (x : String) : Decidable (plain x) := inferInstanceAs (Decidable (_ ∧ _))

theorem plain_ne_R0c {x : String} (h : plain x) (k : Nat) : x ≠ "R0c" ++ toString k := by
  rintro rfl
  apply h.1
  rw [String.toList_append, show "R0c".toList = ['R', '0', 'c'] from rfl]
  rfl

theorem plain_ne_Z0s {x : String} (h : plain x) (k : Nat) : x ≠ "Z0s" ++ toString k := by
  rintro rfl
  apply h.2
  rw [String.toList_append, show "Z0s".toList = ['Z', '0', 's'] from rfl]
  rfl

theorem settings_plain : ∀ x ∈ settings, plain x := by decide

theorem mem_settings (x : String) : x ∈ settingNames ↔ x ∈ settings :=
  ⟨fun h => (show ∀ x ∈ settingNames, x ∈ settings by decide) x h,
   fun h => (show ∀ x ∈ settings, x ∈ settingNames by decide) x h⟩

/-- Two places cannot have the same name. -/
theorem _root_.Qsc.Spec.ScanParams.Names.unique {nm : Nat} {x : String} {a b : Slot} (ha : Names nm x a) (hb : Names nm x b) :
    a = b := by
  generalize hx : x = y at hb
  cases ha with
  | R0c k h1 h2 =>
    cases hb with
    | R0c k' => rw [R0c_inj hx]
    | Z0s k' => exact absurd hx (R0c_ne_Z0s _ _)
    | setting y hy => exact absurd hx.symm (plain_ne_R0c (settings_plain _ hy) _)
    | etaBar => exact absurd hx.symm (plain_ne_R0c (by decide) _)
    | p2 => exact absurd hx.symm (plain_ne_R0c (by decide) _)
    | B2c => exact absurd hx.symm (plain_ne_R0c (by decide) _)
    | B2s => exact absurd hx.symm (plain_ne_R0c (by decide) _)
  | Z0s k h1 h2 =>
    cases hb with
    | R0c k' => exact absurd hx.symm (R0c_ne_Z0s _ _)
    | Z0s k' => rw [Z0s_inj hx]
    | setting y hy => exact absurd hx.symm (plain_ne_Z0s (settings_plain _ hy) _)
    | etaBar => exact absurd hx.symm (plain_ne_Z0s (by decide) _)
    | p2 => exact absurd hx.symm (plain_ne_Z0s (by decide) _)
    | B2c => exact absurd hx.symm (plain_ne_Z0s (by decide) _)
    | B2s => exact absurd hx.symm (plain_ne_Z0s (by decide) _)
  | setting x hs =>
    cases hb with
    | R0c k' => exact absurd hx (plain_ne_R0c (settings_plain _ hs) _)
    | Z0s k' => exact absurd hx (plain_ne_Z0s (settings_plain _ hs) _)
    | setting y hy => rw [hx]
    | etaBar => rw [hx] at hs; exact absurd hs (by decide)
    | p2 => rw [hx] at hs; exact absurd hs (by decide)
    | B2c => rw [hx] at hs; exact absurd hs (by decide)
    | B2s => rw [hx] at hs; exact absurd hs (by decide)
  | etaBar =>
    cases hb with
    | R0c k' => exact absurd hx (plain_ne_R0c (by decide) _)
    | Z0s k' => exact absurd hx (plain_ne_Z0s (by decide) _)
    | setting y hy => rw [← hx] at hy; exact absurd hy (by decide)
    | etaBar => rfl
    | p2 => exact absurd hx (by decide)
    | B2c => exact absurd hx (by decide)
    | B2s => exact absurd hx (by decide)
  | p2 =>
    cases hb with
    | R0c k' => exact absurd hx (plain_ne_R0c (by decide) _)
    | Z0s k' => exact absurd hx (plain_ne_Z0s (by decide) _)
    | setting y hy => rw [← hx] at hy; exact absurd hy (by decide)
    | etaBar => exact absurd hx (by decide)
    | p2 => rfl
    | B2c => exact absurd hx (by decide)
    | B2s => exact absurd hx (by decide)
  | B2c =>
    cases hb with
    | R0c k' => exact absurd hx (plain_ne_R0c (by decide) _)
    | Z0s k' => exact absurd hx (plain_ne_Z0s (by decide) _)
    | setting y hy => rw [← hx] at hy; exact absurd hy (by decide)
    | etaBar => exact absurd hx (by decide)
    | p2 => exact absurd hx (by decide)
    | B2c => rfl
    | B2s => exact absurd hx (by decide)
  | B2s =>
    cases hb with
    | R0c k' => exact absurd hx (plain_ne_R0c (by decide) _)
    | Z0s k' => exact absurd hx (plain_ne_Z0s (by decide) _)
    | setting y hy => rw [← hx] at hy; exact absurd hy (by decide)
    | etaBar => exact absurd hx (by decide)
    | p2 => exact absurd hx (by decide)
    | B2c => exact absurd hx (by decide)
    | B2s => rfl

/-! ## Writing -/

theorem write_isSome (s : Stage F) (v : F) (sl : Slot) :
    (s.write v sl).isSome = (valueAt s sl).isSome := by
  cases sl with
  | num x => rfl
  | R0c k =>
    simp only [Stage.write, valueAt]
    split
    · next h => rw [List.getElem?_eq_getElem h]; rfl
    · next h => rw [List.getElem?_eq_none (by omega)]; rfl
  | Z0s k =>
    simp only [Stage.write, valueAt]
    split
    · next h => rw [List.getElem?_eq_getElem h]; rfl
    · next h => rw [List.getElem?_eq_none (by omega)]; rfl

theorem read_write {s s' : Stage F} {v : F} {sl : Slot} (h : s.write v sl = some s') (x : Slot) :
    valueAt s' x = if x = sl then some v else valueAt s x := by
  cases sl with
  | num y =>
    simp only [Stage.write, Option.some.injEq] at h
    subst h
    cases x with
    | num z => by_cases e : z = y <;> simp [valueAt, e]
    | R0c k => simp [valueAt]
    | Z0s k => simp [valueAt]
  | R0c k =>
    simp only [Stage.write] at h
    split at h
    · next hk =>
      simp only [Option.some.injEq] at h
      subst h
      cases x with
      | num z => simp [valueAt]
      | R0c j =>
        simp only [valueAt, List.getElem?_set, Slot.R0c.injEq]
        by_cases e : k = j
        · subst e; simp [hk]
        · simp [e, Ne.symm e]
      | Z0s j => simp [valueAt]
    · cases h
  | Z0s k =>
    simp only [Stage.write] at h
    split at h
    · next hk =>
      simp only [Option.some.injEq] at h
      subst h
      cases x with
      | num z => simp [valueAt]
      | Z0s j =>
        simp only [valueAt, List.getElem?_set, Slot.Z0s.injEq]
        by_cases e : k = j
        · subst e; simp [hk]
        · simp [e, Ne.symm e]
      | R0c j => simp [valueAt]
    · cases h

theorem assign_ok_iff (ss ss' : List (Stage F)) (j : Nat) (sl : Slot) (v : F) :
    assign ss j sl v = .ok ss' ↔
      ∃ s s', ss[j]? = some s ∧ s.write v sl = some s' ∧ ss' = ss.set j s' := by
  unfold assign
  cases hs : ss[j]? with
  | none => simp
  | some s =>
    cases hw : s.write v sl with
    | none => simp [hw]
    | some s' => simp [hw, eq_comm]

theorem assignStart_ok_iff (ss ss' : List (Stage F)) (j : Nat) (sl : Slot) (v : F) :
    assignStart ss j sl v = .ok ss' ↔ assign ss j sl v = .ok ss' ∧ j = 0 := by
  unfold assignStart
  cases assign ss j sl v with
  | error e => simp
  | ok x => by_cases hj : j = 0 <;> simp [hj]

/-! ## One stage -/

theorem modeLoop_skip (name : String) (v : F) (j : Nat) (ks : List Nat) (ss : List (Stage F))
    (b : Bool) (h : ∀ k ∈ ks, name ≠ "R0c" ++ toString k ∧ name ≠ "Z0s" ++ toString k) :
    modeLoop name v j ks ss b = .ok (ss, b) := by
  induction ks with
  | nil => rfl
  | cons k ks ih =>
    rw [modeLoop, if_neg (h k (by simp)).1, if_neg (h k (by simp)).2]
    exact ih fun k hk => h k (by simp [hk])

theorem modeLoop_append (name : String) (v : F) (j : Nat) (ks ks' : List Nat) (ss : List (Stage F))
    (b : Bool) (h : ∀ k ∈ ks, name ≠ "R0c" ++ toString k ∧ name ≠ "Z0s" ++ toString k) :
    modeLoop name v j (ks ++ ks') ss b = modeLoop name v j ks' ss b := by
  induction ks with
  | nil => rfl
  | cons k ks ih =>
    rw [List.cons_append, modeLoop, if_neg (h k (by simp)).1, if_neg (h k (by simp)).2]
    exact ih fun k hk => h k (by simp [hk])

theorem mem_modes {nm k : Nat} : k ∈ (List.range nm).drop 1 ↔ 1 ≤ k ∧ k < nm := by
  rw [List.mem_iff_getElem?]
  simp only [List.getElem?_drop]
  constructor
  · rintro ⟨i, hi⟩
    have h1 := List.getElem?_eq_some_iff.mp hi
    obtain ⟨h2, h3⟩ := h1
    simp at h2 h3
    omega
  · rintro ⟨h1, h2⟩
    exact ⟨k - 1, by rw [show 1 + (k - 1) = k by omega, List.getElem?_range h2]⟩

theorem modes_split {nm k : Nat} (h1 : 1 ≤ k) (h2 : k < nm) : ∃ l1 l2,
    (List.range nm).drop 1 = l1 ++ k :: l2 ∧ k ∉ l1 ∧ k ∉ l2 := by
  obtain ⟨l1, l2, h⟩ := List.append_of_mem (mem_modes.mpr ⟨h1, h2⟩)
  have hnd : ((List.range nm).drop 1).Nodup := (List.drop_sublist 1 _).nodup List.nodup_range
  rw [h, List.nodup_append] at hnd
  refine ⟨l1, l2, h, fun hk => hnd.2.2 k hk k (by simp) rfl, fun hk => ?_⟩
  exact (List.nodup_cons.mp hnd.2.1).1 hk

theorem setOne_R0c (nm k : Nat) (h1 : 1 ≤ k) (h2 : k < nm) (v : F) (ss : List (Stage F)) (j : Nat) :
    setOne nm ("R0c" ++ toString k) v ss j = assignStart ss j (.R0c k) v := by
  obtain ⟨l1, l2, hl, n1, n2⟩ := modes_split h1 h2
  unfold setOne
  rw [hl, modeLoop_append _ _ _ _ _ _ _ fun k' hk' =>
    ⟨fun e => n1 ((R0c_inj (a := k) (b := k') e).symm ▸ hk'), R0c_ne_Z0s k k'⟩, modeLoop, if_pos rfl]
  cases assignStart ss j (.R0c k) v with
  | error e => rfl
  | ok ss' =>
    dsimp only
    rw [modeLoop_skip _ _ _ _ _ _ fun k' hk' => ⟨fun e => n2 ((R0c_inj (a := k) (b := k') e).symm ▸ hk'), R0c_ne_Z0s k k'⟩]
    rfl

theorem setOne_Z0s (nm k : Nat) (h1 : 1 ≤ k) (h2 : k < nm) (v : F) (ss : List (Stage F)) (j : Nat) :
    setOne nm ("Z0s" ++ toString k) v ss j = assignStart ss j (.Z0s k) v := by
  obtain ⟨l1, l2, hl, n1, n2⟩ := modes_split h1 h2
  unfold setOne
  rw [hl, modeLoop_append _ _ _ _ _ _ _ fun k' hk' =>
    ⟨fun e => R0c_ne_Z0s k' k e.symm, fun e => n1 ((Z0s_inj (a := k) (b := k') e).symm ▸ hk')⟩, modeLoop,
    if_neg (fun e => R0c_ne_Z0s k k e.symm), if_pos rfl]
  cases assignStart ss j (.Z0s k) v with
  | error e => rfl
  | ok ss' =>
    dsimp only
    rw [modeLoop_skip _ _ _ _ _ _ fun k' hk' =>
      ⟨fun e => R0c_ne_Z0s k' k e.symm, fun e => n2 ((Z0s_inj (a := k) (b := k') e).symm ▸ hk')⟩]
    rfl

theorem setOne_plain (nm : Nat) (name : String) (hp : plain name) (v : F) (ss : List (Stage F))
    (j : Nat) : setOne nm name v ss j =
      if name ∈ settingNames then assign ss j (.num name) v
      else match startNames.lookup name with
        | some member => assignStart ss j (.num member) v
        | none => .error (.throw "Unrecognized entry in params") := by
  unfold setOne
  rw [modeLoop_skip _ _ _ _ _ _ fun k _ => ⟨plain_ne_R0c hp k, plain_ne_Z0s hp k⟩]
  rfl

theorem setting_not_initial {x : String} (h : x ∈ settings) : ¬ InitialCondition (.num x) := by
  rintro (rfl | rfl | rfl | rfl) <;> exact absurd h (by decide)

open Classical in
/-- The effect for a known name. -/
theorem setOne_named {nm : Nat} {name : String} {sl : Slot} (h : Names nm name sl) (v : F)
    (ss : List (Stage F)) (j : Nat) :
    setOne nm name v ss j =
      if InitialCondition sl then assignStart ss j sl v else assign ss j sl v := by
  cases h with
  | R0c k h1 h2 =>
    have hi : InitialCondition (.R0c k) := trivial
    rw [setOne_R0c nm k h1 h2, if_pos hi]
  | Z0s k h1 h2 =>
    have hi : InitialCondition (.Z0s k) := trivial
    rw [setOne_Z0s nm k h1 h2, if_pos hi]
  | setting x hx =>
    rw [setOne_plain _ _ (settings_plain _ hx), if_pos ((mem_settings _).mpr hx),
      if_neg (setting_not_initial hx)]
  | etaBar =>
    have hi : InitialCondition (.num "q.eta_bar") := by simp [InitialCondition]
    rw [setOne_plain _ _ (by decide), if_neg (by decide), if_pos hi]; rfl
  | p2 =>
    have hi : InitialCondition (.num "q.p2") := by simp [InitialCondition]
    rw [setOne_plain _ _ (by decide), if_neg (by decide), if_pos hi]; rfl
  | B2c =>
    have hi : InitialCondition (.num "q.B2c") := by simp [InitialCondition]
    rw [setOne_plain _ _ (by decide), if_neg (by decide), if_pos hi]; rfl
  | B2s =>
    have hi : InitialCondition (.num "q.B2s") := by simp [InitialCondition]
    rw [setOne_plain _ _ (by decide), if_neg (by decide), if_pos hi]; rfl

/-- An unknown name. -/
theorem setOne_unknown {nm : Nat} {name : String} (h : ∀ sl, ¬ Names nm name sl) (v : F)
    (ss : List (Stage F)) (j : Nat) :
    setOne nm name v ss j = .error (.throw "Unrecognized entry in params") := by
  have hm : ∀ k ∈ (List.range nm).drop 1, name ≠ "R0c" ++ toString k ∧ name ≠ "Z0s" ++ toString k := by
    intro k hk
    obtain ⟨h1, h2⟩ := mem_modes.mp hk
    exact ⟨fun e => h (.R0c k) (e ▸ .R0c k h1 h2), fun e => h (.Z0s k) (e ▸ .Z0s k h1 h2)⟩
  have hs : name ∉ settingNames := fun hs => h _ (.setting name ((mem_settings _).mp hs))
  have hl : startNames.lookup name = none := by
    have h1 : name ≠ "eta_bar" := by rintro rfl; exact h _ .etaBar
    have h2 : name ≠ "p2" := by rintro rfl; exact h _ .p2
    have h3 : name ≠ "B2c" := by rintro rfl; exact h _ .B2c
    have h4 : name ≠ "B2s" := by rintro rfl; exact h _ .B2s
    simp [startNames, List.lookup, beq_eq_false_iff_ne.mpr h1, beq_eq_false_iff_ne.mpr h2,
      beq_eq_false_iff_ne.mpr h3, beq_eq_false_iff_ne.mpr h4]
  unfold setOne
  rw [modeLoop_skip _ _ _ _ _ _ hm]
  dsimp only
  rw [if_neg (by simp), if_neg hs, hl]

theorem setOne_ok_iff {nm : Nat} {name : String} {sl : Slot} (h : Names nm name sl) (v : F)
    (ss ss' : List (Stage F)) (j : Nat) :
    setOne nm name v ss j = .ok ss' ↔ (InitialCondition sl → j = 0) ∧
      ∃ s s', ss[j]? = some s ∧ s.write v sl = some s' ∧ ss' = ss.set j s' := by
  rw [setOne_named h, ← assign_ok_iff]
  split
  · next hi => rw [assignStart_ok_iff]; exact ⟨fun ⟨a, b⟩ => ⟨fun _ => b, a⟩, fun ⟨a, b⟩ => ⟨b, a hi⟩⟩
  · next hi => exact ⟨fun a => ⟨fun h => absurd h hi, a⟩, fun a => a.2⟩

/-! ## Several stages -/

theorem loop_ok {nm : Nat} {name : String} {sl : Slot} (h : Names nm name sl) (v : F)
    (js : List Nat) (ss ss' : List (Stage F)) (hok : js.foldlM (setOne nm name v) ss = .ok ss') :
    ss'.length = ss.length ∧
    (∀ j s, ss[j]? = some s → ∃ s', ss'[j]? = some s' ∧
      ∀ x, valueAt s' x = if j ∈ js ∧ x = sl then some v else valueAt s x) ∧
    ∀ j ∈ js, (InitialCondition sl → j = 0) ∧ ∃ s, ss[j]? = some s ∧ (valueAt s sl).isSome := by
  induction js generalizing ss with
  | nil =>
    cases hok
    exact ⟨rfl, fun j s hs => ⟨s, hs, fun x => by simp⟩, by simp⟩
  | cons a js ih =>
    rw [List.foldlM_cons, bind_ok] at hok
    obtain ⟨ss1, h1, h2⟩ := hok
    obtain ⟨hi, s0, s1, hs0, hw, rfl⟩ := (setOne_ok_iff h v ss ss1 a).mp h1
    obtain ⟨l1, l2, l3⟩ := ih _ h2
    have halt : a < ss.length := (List.getElem?_eq_some_iff.mp hs0).1
    have hsome : (valueAt s0 sl).isSome := by rw [← write_isSome s0 v, hw]; rfl
    refine ⟨by rw [l1, List.length_set], fun j s hs => ?_, fun j hj => ?_⟩
    · by_cases e : a = j
      · subst e
        rw [hs0] at hs
        cases hs
        obtain ⟨s', hs', hr⟩ := l2 a s1 (by rw [List.getElem?_set_self halt])
        refine ⟨s', hs', fun x => ?_⟩
        rw [hr, read_write hw]
        by_cases hx : x = sl <;> simp [hx]
      · obtain ⟨s', hs', hr⟩ := l2 j s (by rw [List.getElem?_set_ne e]; exact hs)
        refine ⟨s', hs', fun x => ?_⟩
        rw [hr]
        simp [Ne.symm e]
    · rcases List.mem_cons.mp hj with rfl | hj
      · exact ⟨hi, s0, hs0, hsome⟩
      · obtain ⟨b1, s, b2, b3⟩ := l3 j hj
        refine ⟨b1, ?_⟩
        by_cases e : a = j
        · subst e
          exact ⟨s0, hs0, hsome⟩
        · rw [List.getElem?_set_ne e] at b2
          exact ⟨s, b2, b3⟩

theorem loop_complete {nm : Nat} {name : String} {sl : Slot} (h : Names nm name sl) (v : F)
    (js : List Nat) (ss : List (Stage F))
    (hj : ∀ j ∈ js, (InitialCondition sl → j = 0) ∧ ∃ s, ss[j]? = some s ∧ (valueAt s sl).isSome) :
    ∃ ss', js.foldlM (setOne nm name v) ss = .ok ss' := by
  induction js generalizing ss with
  | nil => exact ⟨ss, rfl⟩
  | cons a js ih =>
    obtain ⟨hi, s0, hs0, hsome⟩ := hj a (by simp)
    rw [← write_isSome s0 v] at hsome
    obtain ⟨s1, hw⟩ := Option.isSome_iff_exists.mp hsome
    have halt : a < ss.length := (List.getElem?_eq_some_iff.mp hs0).1
    have h1 := (setOne_ok_iff h v ss (ss.set a s1) a).mpr ⟨hi, s0, s1, hs0, hw, rfl⟩
    obtain ⟨ss', h2⟩ := ih (ss.set a s1) fun j hjs => by
      obtain ⟨b1, s, b2, b3⟩ := hj j (by simp [hjs])
      refine ⟨b1, ?_⟩
      by_cases e : a = j
      · subst e
        refine ⟨s1, by rw [List.getElem?_set_self halt], ?_⟩
        rw [read_write hw]; simp
      · exact ⟨s, by rw [List.getElem?_set_ne e]; exact b2, b3⟩
    exact ⟨ss', by rw [List.foldlM_cons, bind_ok]; exact ⟨_, h1, h2⟩⟩

theorem mem_stages {st : Int} {n j : Nat} :
    j ∈ stages st n ↔ Concerns st j ∧ (st < 0 → j < n) := by
  unfold stages Concerns
  split
  · next h => rw [List.mem_range]; omega
  · next h => rw [List.mem_singleton]; omega

end Qsc.ScanParams
