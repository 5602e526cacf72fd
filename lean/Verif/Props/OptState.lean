import Verif.Lemmas.OptState

/-!
# Property C28: the optimizer's state vector

`Layout fl ps` says that `ps` lists the varied parameters in the documented order; there is exactly
one such list.
-/

namespace Qsc.OptState

open Qsc.Spec.OptState

variable {K : Type}

/-- Different parameters have different names. -/
theorem name_injective (p r : Param) (h : p.name = r.name) : p = r := by
  have h' := congrArg String.toList h
  cases p <;> cases r <;> simp [Param.name, toString] at h' ⊢ <;>
    exact Nat.repr_injective (String.toList_inj.1 (by simpa using h'))

/-- The number of parameters and the file of names: exactly the varied parameters in the documented
order, under different names; refused if nothing is varied. -/
theorem names_layout (fl : Flags) :
    ∃ ps, Layout fl ps ∧ (ps.map Param.name).Nodup ∧
      initParameters fl = if ps = [] then
        .error (.throw "There must be at least 1 parameter varied.")
        else .ok (ps.length, ps.map Param.name) := by
  refine ⟨layout fl, layout_ok fl, ?_, ?_⟩
  · exact List.pairwise_map.2 ((layout_nodup fl).imp fun h e => h (name_injective _ _ e))
  · rw [initParameters_eq]
    cases layout fl <;> simp

/-- Only one list satisfies the specification of the layout. -/
theorem layout_determined {fl : Flags} {ps rs : List Param} (h : Layout fl ps)
    (h' : Layout fl rs) : ps = rs := layout_unique h h'

/-- Packing succeeds and entry `i` is the value of the `i`-th varied parameter. -/
theorem set_values {fl : Flags} {q : Config K} {ps : List Param} (hs : Sized fl q)
    (hl : Layout fl ps) (sv : List K) (hn : sv.length = ps.length) :
    ∃ sv', setStateVector ps.length fl q sv = .ok sv' ∧ sv'.map some = ps.map (get q) := by
  obtain rfl := layout_unique hl (layout_ok fl)
  obtain ⟨v4, e4⟩ := vals_exist q.R0c fl.R0c (Nat.le_of_eq hs.R0c)
  obtain ⟨v5, e5⟩ := vals_exist q.R0s fl.R0s (Nat.le_of_eq hs.R0s)
  obtain ⟨v6, e6⟩ := vals_exist q.Z0c fl.Z0c (Nat.le_of_eq hs.Z0c)
  obtain ⟨v7, e7⟩ := vals_exist q.Z0s fl.Z0s (Nat.le_of_eq hs.Z0s)
  obtain ⟨v0, h0⟩ : ∃ v, v = (if fl.etaBar then [q.etaBar] else []) := ⟨_, rfl⟩
  obtain ⟨v1, h1⟩ : ∃ v, v = (if fl.sigma0 then [q.sigma0] else []) := ⟨_, rfl⟩
  obtain ⟨v2, h2⟩ : ∃ v, v = (if fl.B2c then [q.B2c] else []) := ⟨_, rfl⟩
  obtain ⟨v3, h3⟩ : ∃ v, v = (if fl.B2s then [q.B2s] else []) := ⟨_, rfl⟩
  have hval : (v0 ++ v1 ++ v2 ++ v3 ++ v4 ++ v5 ++ v6 ++ v7).map some = (layout fl).map (get q) := by
    have one : ∀ (b : Bool) (p : Param) (v : K), get q p = some v →
        (if b then [p] else []).map (get q) = (if b then [v] else []).map some := by
      intro b p v h; cases b <;> simp [h]
    have k4 : (on fl.R0c 0).map (get q ∘ Param.R0c) = v4.map some := e4
    have k5 : (on fl.R0s 0).map (get q ∘ Param.R0s) = v5.map some := e5
    have k6 : (on fl.Z0c 0).map (get q ∘ Param.Z0c) = v6.map some := e6
    have k7 : (on fl.Z0s 0).map (get q ∘ Param.Z0s) = v7.map some := e7
    simp only [layout, List.map_append, List.map_map, k4, k5, k6, k7, one _ .etaBar _ rfl,
      one _ .sigma0 _ rfl, one _ .B2c _ rfl, one _ .B2s _ rfl, h0, h1, h2, h3, List.append_assoc]
  have hlen := congrArg List.length hval
  simp only [List.length_map, List.length_append] at hlen
  refine ⟨_, ?_, hval⟩
  unfold setStateVector
  have s0 := setScalar_eq fl.etaBar q.etaBar [] sv (by rw [← h0]; omega)
  rw [← h0] at s0
  have s1 := setScalar_eq fl.sigma0 q.sigma0 ([] ++ v0) (sv.drop v0.length)
    (by rw [← h1]; simp; omega)
  rw [← h1] at s1
  have s2 := setScalar_eq fl.B2c q.B2c ([] ++ v0 ++ v1) ((sv.drop v0.length).drop v1.length)
    (by rw [← h2]; simp; omega)
  rw [← h2] at s2
  have s3 := setScalar_eq fl.B2s q.B2s ([] ++ v0 ++ v1 ++ v2)
    (((sv.drop v0.length).drop v1.length).drop v2.length) (by rw [← h3]; simp; omega)
  rw [← h3] at s3
  have s4 := setArr_eq q.R0c fl.R0c 0 ([] ++ v0 ++ v1 ++ v2 ++ v3)
    ((((sv.drop v0.length).drop v1.length).drop v2.length).drop v3.length) v4 e4 (by simp; omega)
  have s5 := setArr_eq q.R0s fl.R0s 0 ([] ++ v0 ++ v1 ++ v2 ++ v3 ++ v4)
    (((((sv.drop v0.length).drop v1.length).drop v2.length).drop v3.length).drop v4.length)
    v5 e5 (by simp; omega)
  have s6 := setArr_eq q.Z0c fl.Z0c 0 ([] ++ v0 ++ v1 ++ v2 ++ v3 ++ v4 ++ v5)
    ((((((sv.drop v0.length).drop v1.length).drop v2.length).drop v3.length).drop
      v4.length).drop v5.length) v6 e6 (by simp; omega)
  have s7 := setArr_eq q.Z0s fl.Z0s 0 ([] ++ v0 ++ v1 ++ v2 ++ v3 ++ v4 ++ v5 ++ v6)
    (((((((sv.drop v0.length).drop v1.length).drop v2.length).drop v3.length).drop
      v4.length).drop v5.length).drop v6.length) v7 e7 (by simp; omega)
  have s0' : setScalar fl.etaBar q.etaBar (sv, 0) =
      .ok ([] ++ v0 ++ sv.drop v0.length, ([] ++ v0).length) := s0
  simp only [s0', s1, s2, s3, s4, s5, s6, s7, Except.bind]
  rw [if_pos (by simp only [List.length_append, List.length_nil]; omega)]
  simp only [List.nil_append, List.drop_drop]
  rw [List.drop_eq_nil_of_le (by omega), List.append_nil]

/-- Unpacking succeeds, parameter `i` gets entry `i`, every other parameter and all array sizes stay
as they were. -/
theorem unpack_values {fl : Flags} {q : Config K} {ps : List Param} (hs : Sized fl q)
    (hl : Layout fl ps) (sv : List K) (hn : sv.length = ps.length) :
    ∃ q', unpackStateVector ps.length fl q sv = .ok q' ∧ ps.map (get q') = sv.map some ∧
      (∀ p, p ∉ ps → get q' p = get q p) ∧ Sized fl q' := by
  obtain rfl := layout_unique hl (layout_ok fl)
  have hn' := hn
  simp only [layout, List.length_append, List.length_map] at hn'
  obtain ⟨v0, r0, rfl, n0, hn0⟩ := split_vec sv _ _ hn'
  obtain ⟨v1, r1, rfl, n1, hn1⟩ := split_vec r0 _ _ hn0
  obtain ⟨v2, r2, rfl, n2, hn2⟩ := split_vec r1 _ _ hn1
  obtain ⟨v3, r3, rfl, n3, hn3⟩ := split_vec r2 _ _ hn2
  obtain ⟨v4, r4, rfl, n4, hn4⟩ := split_vec r3 _ _ hn3
  obtain ⟨v5, r5, rfl, n5, hn5⟩ := split_vec r4 _ _ hn4
  obtain ⟨v6, v7, rfl, n6, n7⟩ := split_vec r5 _ _ hn5
  clear hn0 hn1 hn2 hn3 hn4 hn5
  have fix : ∀ (b : Bool) (p : Param), (if b then [p] else []).length =
      (if b then [()] else []).length := by intro b p; cases b <;> rfl
  obtain ⟨x0, a0, b0, c0⟩ := unpackScalar_eq [] v0 (v1 ++ (v2 ++ (v3 ++ (v4 ++ (v5 ++ (v6 ++ v7))))))
    fl.etaBar q.etaBar (n0.trans (fix _ _))
  obtain ⟨x1, a1, b1, c1⟩ := unpackScalar_eq ([] ++ v0) v1 (v2 ++ (v3 ++ (v4 ++ (v5 ++ (v6 ++ v7)))))
    fl.sigma0 q.sigma0 (n1.trans (fix _ _))
  obtain ⟨x2, a2, b2, c2⟩ := unpackScalar_eq ([] ++ v0 ++ v1) v2 (v3 ++ (v4 ++ (v5 ++ (v6 ++ v7))))
    fl.B2c q.B2c (n2.trans (fix _ _))
  obtain ⟨x3, a3, b3, c3⟩ := unpackScalar_eq ([] ++ v0 ++ v1 ++ v2) v3 (v4 ++ (v5 ++ (v6 ++ v7)))
    fl.B2s q.B2s (n3.trans (fix _ _))
  obtain ⟨x4, a4, l4, o4, m4⟩ := unpackArr_eq fl.R0c 0 ([] ++ v0 ++ v1 ++ v2 ++ v3) v4
    (v5 ++ (v6 ++ v7)) q.R0c (by rw [Nat.zero_add, hs.R0c]; exact Nat.le_refl _) n4
  obtain ⟨x5, a5, l5, o5, m5⟩ := unpackArr_eq fl.R0s 0 ([] ++ v0 ++ v1 ++ v2 ++ v3 ++ v4) v5
    (v6 ++ v7) q.R0s (by rw [Nat.zero_add, hs.R0s]; exact Nat.le_refl _) n5
  obtain ⟨x6, a6, l6, o6, m6⟩ := unpackArr_eq fl.Z0c 0 ([] ++ v0 ++ v1 ++ v2 ++ v3 ++ v4 ++ v5) v6
    v7 q.Z0c (by rw [Nat.zero_add, hs.Z0c]; exact Nat.le_refl _) n6
  obtain ⟨x7, a7, l7, o7, m7⟩ := unpackArr_eq fl.Z0s 0
    ([] ++ v0 ++ v1 ++ v2 ++ v3 ++ v4 ++ v5 ++ v6) v7
    [] q.Z0s (by rw [Nat.zero_add, hs.Z0s]; exact Nat.le_refl _) n7
  refine ⟨⟨x0, x1, x2, x3, x4, x5, x6, x7⟩, ?_, ?_, ?_, ?_⟩
  · unfold unpackStateVector
    simp only [List.nil_append, List.append_assoc, List.append_nil, List.length_nil]
      at a0 a1 a2 a3 a4 a5 a6 a7
    simp only [a0, a1, a2, a3, a4, a5, a6, a7, Except.bind]
    rw [if_pos]
    simpa using hn
  · have one : ∀ (b : Bool) (p : Param) (x : K) (v : List K) (q' : Config K), get q' p = some x →
        (b = true → v = [x]) → v.length = (if b then [p] else []).length →
        (if b then [p] else []).map (get q') = v.map some := by
      intro b p x v q' h hb hlen
      cases b with
      | true => rw [hb rfl]; simp [h]
      | false =>
        have hv : v = [] := List.length_eq_zero_iff.1 (by simpa using hlen)
        rw [hv]; rfl
    let q' : Config K := ⟨x0, x1, x2, x3, x4, x5, x6, x7⟩
    have k4 : (on fl.R0c 0).map (get q' ∘ Param.R0c) = v4.map some := m4
    have k5 : (on fl.R0s 0).map (get q' ∘ Param.R0s) = v5.map some := m5
    have k6 : (on fl.Z0c 0).map (get q' ∘ Param.Z0c) = v6.map some := m6
    have k7 : (on fl.Z0s 0).map (get q' ∘ Param.Z0s) = v7.map some := m7
    change (layout fl).map (get q') = _
    simp only [layout, List.map_append, List.map_map, k4, k5, k6, k7,
      one _ .etaBar x0 v0 q' rfl b0 n0, one _ .sigma0 x1 v1 q' rfl b1 n1,
      one _ .B2c x2 v2 q' rfl b2 n2, one _ .B2s x3 v3 q' rfl b3 n3]
  · intro p hp
    have hv : ¬ Varied fl p := fun h => hp ((layout_ok fl).mem p |>.2 h)
    cases p with
    | etaBar => exact congrArg some (c0 (by simpa [Varied] using hv))
    | sigma0 => exact congrArg some (c1 (by simpa [Varied] using hv))
    | B2c => exact congrArg some (c2 (by simpa [Varied] using hv))
    | B2s => exact congrArg some (c3 (by simpa [Varied] using hv))
    | R0c k => exact o4 k fun h => hv ((mem_on _ _ _).1 h).2
    | R0s k => exact o5 k fun h => hv ((mem_on _ _ _).1 h).2
    | Z0c k => exact o6 k fun h => hv ((mem_on _ _ _).1 h).2
    | Z0s k => exact o7 k fun h => hv ((mem_on _ _ _).1 h).2
  · exact ⟨hs.R0c.trans l4.symm, hs.R0s.trans l5.symm, hs.Z0c.trans l6.symm, hs.Z0s.trans l7.symm⟩

/-- A configuration is determined by the values of its parameters. -/
theorem get_ext {q r : Config K} (h : ∀ p, get q p = get r p) : q = r := by
  obtain ⟨_, _, _, _, _, _, _, _⟩ := q
  obtain ⟨_, _, _, _, _, _, _, _⟩ := r
  have h0 := h .etaBar
  have h1 := h .sigma0
  have h2 := h .B2c
  have h3 := h .B2s
  have h4 := List.ext_getElem? fun k => h (.R0c k)
  have h5 := List.ext_getElem? fun k => h (.R0s k)
  have h6 := List.ext_getElem? fun k => h (.Z0c k)
  have h7 := List.ext_getElem? fun k => h (.Z0s k)
  simp only [Spec.OptState.get, Option.some.injEq] at h0 h1 h2 h3
  simp only at h4 h5 h6 h7
  subst h0 h1 h2 h3 h4 h5 h6 h7
  rfl

/-- Packing and then unpacking, into the same configuration, changes nothing. -/
theorem pack_unpack {fl : Flags} {q : Config K} {ps : List Param} (hs : Sized fl q)
    (hl : Layout fl ps) (sv : List K) (hn : sv.length = ps.length) :
    (setStateVector ps.length fl q sv).bind (unpackStateVector ps.length fl q) = .ok q := by
  obtain ⟨sv', h1, h2⟩ := set_values hs hl sv hn
  obtain ⟨q', h3, h4, h5, -⟩ := unpack_values hs hl sv' (by
    simpa using congrArg List.length h2)
  have : q' = q := by
    refine get_ext fun p => ?_
    by_cases hp : p ∈ ps
    · exact List.map_inj_left.1 (h4.trans h2) p hp
    · exact h5 p hp
  rw [h1, ← this]
  simpa [Except.bind, this] using h3

/-- Unpacking a vector and packing again gives the vector back, whatever was in the array. -/
theorem unpack_pack {fl : Flags} {q : Config K} {ps : List Param} (hs : Sized fl q)
    (hl : Layout fl ps) (sv old : List K) (hn : sv.length = ps.length)
    (ho : old.length = ps.length) :
    (unpackStateVector ps.length fl q sv).bind
      (fun q' => setStateVector ps.length fl q' old) = .ok sv := by
  obtain ⟨q', h3, h4, -, h6⟩ := unpack_values hs hl sv hn
  obtain ⟨sv', h1, h2⟩ := set_values h6 hl old ho
  rw [h3]
  have : sv' = sv := by
    have := h2.trans h4
    exact List.map_inj_right (fun _ _ => Option.some.inj) |>.1 this
  simpa [Except.bind, this] using h1

/-- Different vectors give different configurations. -/
theorem unpack_injective {fl : Flags} {q : Config K} {ps : List Param} (hs : Sized fl q)
    (hl : Layout fl ps) (sv sv' : List K) (hn : sv.length = ps.length)
    (hn' : sv'.length = ps.length)
    (h : unpackStateVector ps.length fl q sv = unpackStateVector ps.length fl q sv') :
    sv = sv' := by
  obtain ⟨q', h3, h4, -, -⟩ := unpack_values hs hl sv hn
  obtain ⟨r', h3', h4', -, -⟩ := unpack_values hs hl sv' hn'
  rw [h3, h3'] at h
  obtain rfl := Except.ok.inj h
  exact List.map_inj_right (fun _ _ => Option.some.inj) |>.1 (h4.symm.trans h4')

/-- A configuration with a flag for an amplitude that does not exist cannot be packed. -/
example : setStateVector 1 ⟨false, false, false, false, [false, true], [], [], []⟩
    (⟨1, 0, 0, 0, [1], [], [], []⟩ : Config Int) [0] = .error (.undefined "axis array") := rfl

/-- Example: eta_bar, B2c and two amplitudes vary. -/
def exFlags : Flags := ⟨true, false, true, false, [false, true], [false, false], [false, false],
  [false, true]⟩

def exConfig : Config Int := ⟨7, 8, 9, 10, [1, 2], [0, 0], [0, 0], [0, 3]⟩

example : Layout exFlags [.etaBar, .B2c, .R0c 1, .Z0s 1] := layout_ok exFlags
example : Sized exFlags exConfig := ⟨rfl, rfl, rfl, rfl⟩
example : setStateVector 4 exFlags exConfig [0, 0, 0, 0] = .ok [7, 9, 2, 3] := rfl
example : unpackStateVector 4 exFlags exConfig [70, 90, 20, 30] =
    .ok ⟨70, 8, 90, 10, [1, 20], [0, 0], [0, 0], [0, 30]⟩ := rfl
example : initParameters exFlags = .ok (4, ["eta_bar", "B2c", "R0c[1]", "Z0s[1]"]) := by rfl
example : initParameters ⟨false, false, false, false, [false], [false], [false], [false]⟩ =
    .error (.throw "There must be at least 1 parameter varied.") := rfl

end Qsc.OptState
