import Verif.Spec.OptResid

/-!
# Lemmas about the residual vector
-/

namespace Qsc.OptResid

open Qsc.OptState (Err)
open Qsc.Spec.OptResid

variable {K : Type}

/-- The blocks in the order of the code. -/
def blocks : List Block :=
  [.B20, .iota, .elongation, .curvature, .R0, .d2_volume_d_psi2,
   .DMerc_times_r2, .XY2, .XY2Prime, .XY2PrimePrime, .Z2, .Z2Prime, .XY3, .XY3Prime,
   .XY3PrimePrime, .grad_B, .grad_grad_B, .r_singularity, .axis_length, .standard_deviation_of_R, .B20_mean]

theorem mem_blocks (b : Block) : b ∈ blocks := by cases b <;> decide

theorem blocks_sorted : blocks.Pairwise fun a b => a.rank < b.rank := by decide

theorem rank_injective : ∀ a b : Block, a.rank = b.rank → a = b := by
  intro a b h
  cases a <;> cases b <;> first | rfl | simp [Block.rank] at h

/-- The entries of one block. -/
def part [Zero K] (o : Ops K) (w : Weights K) (nphi : Nat) (b : Block) : List (Block × Nat) :=
  if o.lt 0 (b.weight w) then (List.range (b.size nphi)).map fun m => (b, m) else []

/-- All entries in the order of the code. -/
def entries [Zero K] (o : Ops K) (w : Weights K) (nphi : Nat) : List (Block × Nat) :=
  blocks.flatMap (part o w nphi)

theorem mem_part [Zero K] (o : Ops K) (w : Weights K) (nphi : Nat) (b c : Block) (m : Nat) :
    (c, m) ∈ part o w nphi b ↔ c = b ∧ o.lt 0 (b.weight w) = true ∧ m < b.size nphi := by
  unfold part
  split
  · rename_i h
    simp only [List.mem_map, List.mem_range, Prod.mk.injEq, h, true_and]
    constructor
    · rintro ⟨a, ha, rfl, rfl⟩; exact ⟨rfl, ha⟩
    · rintro ⟨rfl, ha⟩; exact ⟨m, ha, rfl, rfl⟩
  · rename_i h; simp [h]

theorem entries_ok [Zero K] (o : Ops K) (w : Weights K) (nphi : Nat) :
    Entries o w nphi (entries o w nphi) := by
  constructor
  · intro b m
    simp only [entries, List.mem_flatMap, mem_part]
    constructor
    · rintro ⟨c, -, rfl, h⟩; exact h
    · intro h; exact ⟨b, mem_blocks b, rfl, h⟩
  · unfold entries
    refine List.pairwise_flatMap.2 ⟨fun b _ => ?_, blocks_sorted.imp ?_⟩
    · unfold part
      split
      · refine List.pairwise_map.2 ((List.pairwise_lt_range).imp ?_)
        intro a c h
        exact .inr ⟨rfl, h⟩
      · exact List.Pairwise.nil
    · intro a b hab x hx y hy
      obtain ⟨x1, x2⟩ := x
      obtain ⟨y1, y2⟩ := y
      obtain ⟨rfl, -⟩ := (mem_part ..).1 hx
      obtain ⟨rfl, -⟩ := (mem_part ..).1 hy
      exact .inl hab

theorem Before.asymm {x y : Block × Nat} (h : Before x y) : ¬ Before y x := by
  unfold Before at *; omega

/-- The specification determines the order. -/
theorem entries_unique [Zero K] {o : Ops K} {w : Weights K} {nphi : Nat}
    {es fs : List (Block × Nat)} (h : Entries o w nphi es) (h' : Entries o w nphi fs) :
    es = fs := by
  obtain ⟨hm, hs⟩ := h
  obtain ⟨hm', hs'⟩ := h'
  have hmem : ∀ p, p ∈ es ↔ p ∈ fs := fun p => (hm p.1 p.2).trans (hm' p.1 p.2).symm
  clear hm hm'
  induction es generalizing fs with
  | nil =>
    cases fs with
    | nil => rfl
    | cons r fs => exact absurd ((hmem r).2 List.mem_cons_self) (by simp)
  | cons p es ih =>
    cases fs with
    | nil => exact absurd ((hmem p).1 List.mem_cons_self) (by simp)
    | cons r fs =>
      rw [List.pairwise_cons] at hs hs'
      have hpr : p = r := by
        rcases List.mem_cons.1 ((hmem p).1 List.mem_cons_self) with h | h
        · exact h
        rcases List.mem_cons.1 ((hmem r).2 List.mem_cons_self) with h2 | h2
        · exact h2.symm
        exact absurd (hs.1 r h2) (Before.asymm (hs'.1 p h))
      subst hpr
      have irr : ∀ x, ¬ Before x x := fun x h => Before.asymm h h
      have : es = fs := by
        refine ih hs.2 hs'.2 fun x => ⟨fun hx => ?_, fun hx => ?_⟩
        · rcases List.mem_cons.1 ((hmem x).1 (List.mem_cons_of_mem _ hx)) with rfl | h
          · exact absurd (hs.1 _ hx) (irr _)
          · exact h
        · rcases List.mem_cons.1 ((hmem x).2 (List.mem_cons_of_mem _ hx)) with rfl | h
          · exact absurd (hs'.1 _ hx) (irr _)
          · exact h
      rw [this]

/-! ## Names -/

theorem count_eq [Zero K] (o : Ops K) (w : Weights K) (nphi : Nat) (b : Block)
    (s : Nat × List String) :
    (if b.single then countOne o (b.weight w) b.name s
      else countMany o (b.weight w) (b.size nphi) b.name s) =
    (s.1 + (part o w nphi b).length,
      s.2 ++ (part o w nphi b).map fun e => e.1.label e.2) := by
  unfold part
  cases hs : b.single <;> cases hw : o.lt 0 (b.weight w) <;>
    simp [countOne, countMany, hw, hs, Block.size, Block.label]

theorem initResiduals_eq [Zero K] (o : Ops K) (w : Weights K) (nphi : Nat) :
    initResiduals o w nphi = if (entries o w nphi).length < 1 then
      .error (.throw "There must be at least 1 residual term.")
      else .ok ((entries o w nphi).length, (entries o w nphi).map fun e => e.1.label e.2) := by
  have key : blocks.foldl (fun s b => if b.single then countOne o (b.weight w) b.name s
      else countMany o (b.weight w) (b.size nphi) b.name s) (0, []) =
      ((entries o w nphi).length, (entries o w nphi).map fun e => e.1.label e.2) := by
    have : ∀ (l : List Block) (s : Nat × List String),
        l.foldl (fun s b => if b.single then countOne o (b.weight w) b.name s
        else countMany o (b.weight w) (b.size nphi) b.name s) s =
        (s.1 + (l.flatMap (part o w nphi)).length,
          s.2 ++ (l.flatMap (part o w nphi)).map fun e => e.1.label e.2) := by
      intro l
      induction l with
      | nil => intro s; simp
      | cons b l ih =>
        intro s
        rw [List.foldl_cons, ih, count_eq]
        simp only [List.flatMap_cons, List.length_append, List.map_append, List.append_assoc,
          Nat.add_assoc]
    simpa [entries] using this blocks (0, [])
  have h := congrArg (fun s : Nat × List String => if s.1 < 1 then
    Except.error (Err.throw "There must be at least 1 residual term.") else Except.ok s) key
  refine Eq.trans ?_ h
  simp only [blocks, List.foldl_cons, List.foldl_nil, Block.single, Block.size, Block.comps,
    Block.name, Block.weight, Nat.mul_one, if_true, Bool.false_eq_true, if_false]
  rfl

/-! ## Values -/

/-- The residual array is written up to the end of `dn`; `m` entries are left. -/
def At (dn : List K) (st : St K) (m : Nat) : Prop :=
  st.j = dn.length ∧ ∃ rest, st.res = dn ++ rest ∧ rest.length = m

/-- The entries that a block adds. -/
def outs [Zero K] [Mul K] (o : Ops K) (w : K) (ts : List K) : List K :=
  if o.lt 0 w then ts.map fun t => w * t else []

/-- The recorded sum of squares. -/
def sq [Add K] [Mul K] (ts : List K) (acc : K) : K := ts.foldl (fun a t => a + t * t) acc

theorem emit_at [Zero K] [Mul K] (o : Ops K) (w t : K) (dn : List K) (st : St K) (m : Nat)
    (h : At dn st ((outs o w [t]).length + m)) :
    ∃ st', emit o w t st = .ok st' ∧ At (dn ++ outs o w [t]) st' m := by
  obtain ⟨hj, rest, hr, hl⟩ := h
  unfold emit
  unfold outs at hl ⊢
  cases hw : o.lt 0 w with
  | false => exact ⟨st, by simp, by simpa [hw] using hj, rest, by simpa [hw] using hr,
      by simpa [hw] using hl⟩
  | true =>
    cases rest with
    | nil => simp [hw] at hl; omega
    | cons r rest =>
      refine ⟨⟨st.j + 1, st.res.set st.j (w * t)⟩, ?_, ?_, rest, ?_, ?_⟩
      · simp only [if_true]
        rw [if_pos (by rw [hj, hr]; simp)]
      · simp [hj]
      · simp only [hr, hj]
        simp
      · simp only [hw, if_true, List.map_cons, List.map_nil, List.length_cons,
          List.length_nil] at hl
        omega

theorem many_at [Zero K] [Add K] [Mul K] (o : Ops K) (w : K) (ts : List K) (acc : K) (dn : List K)
    (st : St K) (m : Nat) (h : At dn st ((outs o w ts).length + m)) :
    ∃ st', many o w ts acc st = .ok (sq ts acc, st') ∧ At (dn ++ outs o w ts) st' m := by
  induction ts generalizing acc dn st with
  | nil =>
    have : outs o w [] = [] := by unfold outs; split <;> rfl
    rw [this] at h ⊢
    exact ⟨st, rfl, by simpa using h⟩
  | cons t ts ih =>
    have hsplit : outs o w (t :: ts) = outs o w [t] ++ outs o w ts := by
      unfold outs; split <;> simp
    rw [hsplit, List.length_append, Nat.add_assoc] at h
    obtain ⟨st1, h1, h2⟩ := emit_at o w t dn st _ h
    obtain ⟨st2, h3, h4⟩ := ih (acc + t * t) _ st1 h2
    refine ⟨st2, ?_, by rw [hsplit, ← List.append_assoc]; exact h4⟩
    rw [many, h1]
    exact h3

theorem one_at [Zero K] [Mul K] (o : Ops K) (w : K) (t : K) (dn : List K)
    (st : St K) (m : Nat) (h : At dn st ((outs o w [t]).length + m)) :
    ∃ st', one o w t st = .ok (t * t, st') ∧ At (dn ++ outs o w [t]) st' m := by
  obtain ⟨st1, h1, h2⟩ := emit_at o w t dn st _ h
  exact ⟨st1, by rw [one, h1]; rfl, h2⟩

/-- A double loop in one index. -/
theorem range_flatMap {α : Type} (n d : Nat) (f : Nat → Nat → α) :
    ((List.range n).flatMap fun k => (List.range d).map (f k)) =
      (List.range (n * d)).map fun m => f (m / d) (m % d) := by
  rcases Nat.eq_zero_or_pos d with rfl | hd
  · simp [List.flatMap]
  induction n with
  | zero => simp
  | succ n ih =>
    rw [List.range_succ, List.flatMap_append, ih, Nat.add_mul, Nat.one_mul, List.range_add,
      List.map_append, List.map_map]
    congr 1
    rw [List.flatMap_singleton]
    refine List.map_congr_left fun i hi => ?_
    have hi := List.mem_range.1 hi
    simp only [Function.comp]
    rw [Nat.mul_comm n d, Nat.mul_add_div hd, Nat.mul_add_mod, Nat.div_eq_of_lt hi,
      Nat.mod_eq_of_lt hi, Nat.add_zero]

theorem grid_eq [Mul K] (af : Nat → K) (n d : Nat) (arrays : List (Nat → K))
    (c : Nat → Nat → K) (h : arrays = (List.range d).map fun i k => c k i) :
    grid af n arrays = (List.range (n * d)).map fun m => af (m / d) * c (m / d) (m % d) := by
  rw [← range_flatMap n d fun k i => af k * c k i, h]
  simp [grid, List.map_map, Function.comp_def]

/-- What each block computes. -/
def vals [Zero K] [Sub K] [Mul K] [Div K] (o : Ops K) (t : Targets K) (q : Phys K) (b : Block) :
    List K := (List.range (b.size q.nphi)).map (value o t q b)

theorem outs_vals [Zero K] [Sub K] [Mul K] [Div K] (o : Ops K) (w : Weights K) (t : Targets K)
    (q : Phys K) (b : Block) : outs o (b.weight w) (vals o t q b) =
      (part o w q.nphi b).map fun e => e.1.weight w * value o t q e.1 e.2 := by
  unfold outs part vals
  split <;> simp

section
variable [Zero K] [Sub K] [Mul K] [Div K] (o : Ops K) (t : Targets K) (q : Phys K)

theorem list_B20 :
    grid (frac o q) q.nphi [q.B20_anomaly] = vals o t q .B20 :=
  grid_eq (frac o q) q.nphi 1 _ (fun k => component q k .B20) rfl

theorem list_elongation :
    grid (frac o q) q.nphi [q.elongation] = vals o t q .elongation :=
  grid_eq (frac o q) q.nphi 1 _ (fun k => component q k .elongation) rfl

theorem list_curvature :
    grid (frac o q) q.nphi [q.curvature] = vals o t q .curvature :=
  grid_eq (frac o q) q.nphi 1 _ (fun k => component q k .curvature) rfl

theorem list_R0 :
    ((List.range q.nphi).map fun k =>
    if o.lt (q.R0 k) t.min_R0 then frac o q k * (t.min_R0 - q.R0 k) else 0) = vals o t q .R0 :=
  by
  simp [vals, Block.size, Block.comps, Block.single, value]

theorem list_XY2 :
    grid (frac o q) q.nphi [q.X20, q.X2s, q.X2c, q.Y20, q.Y2s, q.Y2c] = vals o t q .XY2 :=
  (grid_eq (frac o q) q.nphi 6 _ (fun k => component q k .XY2) rfl)

theorem list_XY2Prime :
    grid (frac o q) q.nphi [q.d_X20_d_varphi, q.d_X2s_d_varphi, q.d_X2c_d_varphi, q.d_Y20_d_varphi,
      q.d_Y2s_d_varphi, q.d_Y2c_d_varphi] = vals o t q .XY2Prime :=
  (grid_eq (frac o q) q.nphi 6 _ (fun k => component q k .XY2Prime) rfl)

theorem list_XY2PrimePrime :
    grid (frac o q) q.nphi [q.d2_X20_d_varphi2, q.d2_X2s_d_varphi2, q.d2_X2c_d_varphi2, q.d2_Y20_d_varphi2,
      q.d2_Y2s_d_varphi2, q.d2_Y2c_d_varphi2] = vals o t q .XY2PrimePrime :=
  (grid_eq (frac o q) q.nphi 6 _ (fun k => component q k .XY2PrimePrime) rfl)

theorem list_Z2 :
    grid (frac o q) q.nphi [q.Z20, q.Z2s, q.Z2c] = vals o t q .Z2 :=
  (grid_eq (frac o q) q.nphi 3 _ (fun k => component q k .Z2) rfl)

theorem list_Z2Prime :
    grid (frac o q) q.nphi [q.d_Z20_d_varphi, q.d_Z2s_d_varphi, q.d_Z2c_d_varphi] = vals o t q .Z2Prime :=
  (grid_eq (frac o q) q.nphi 3 _ (fun k => component q k .Z2Prime) rfl)

theorem list_XY3 :
    grid (frac o q) q.nphi [q.X3c1, q.Y3c1, q.Y3s1] = vals o t q .XY3 :=
  (grid_eq (frac o q) q.nphi 3 _ (fun k => component q k .XY3) rfl)

theorem list_XY3Prime :
    grid (frac o q) q.nphi [q.d_X3c1_d_varphi, q.d_Y3c1_d_varphi, q.d_Y3s1_d_varphi] = vals o t q .XY3Prime :=
  (grid_eq (frac o q) q.nphi 3 _ (fun k => component q k .XY3Prime) rfl)

theorem list_XY3PrimePrime :
    grid (frac o q) q.nphi [q.d2_X3c1_d_varphi2, q.d2_Y3c1_d_varphi2, q.d2_Y3s1_d_varphi2] = vals o t q .XY3PrimePrime :=
  (grid_eq (frac o q) q.nphi 3 _ (fun k => component q k .XY3PrimePrime) rfl)

theorem list_grad_B :
    grid (frac o q) q.nphi ((List.range 9).map fun j2 k =>
    q.grad_B_tensor (k + q.nphi * j2)) = vals o t q .grad_B :=
  (grid_eq (frac o q) q.nphi 9 _ (fun k => component q k .grad_B) rfl)

theorem list_grad_grad_B :
    grid (frac o q) q.nphi ((List.range 27).map fun j2 k =>
    q.grad_grad_B_tensor (k + q.nphi * j2)) = vals o t q .grad_grad_B :=
  (grid_eq (frac o q) q.nphi 27 _ (fun k => component q k .grad_grad_B) rfl)

theorem list_r_singularity :
    ((List.range q.nphi).map fun k => frac o q k / q.r_hat_singularity_robust k) = vals o t q .r_singularity :=
  by
  simp [vals, Block.size, Block.comps, Block.single, value]

theorem list_standard_deviation_of_R :
    ((List.range q.nphi).map fun k => frac o q k * (q.R0 k - q.mean_R)) = vals o t q .standard_deviation_of_R :=
  by
  simp [vals, Block.size, Block.comps, Block.single, value]

theorem list_B20_mean :
    grid (frac o q) q.nphi [q.B20] = vals o t q .B20_mean :=
  grid_eq (frac o q) q.nphi 1 _ (fun k => component q k .B20_mean) rfl

end

/-- The recorded squares of one block. -/
def term [Zero K] [Add K] [Sub K] [Mul K] [Div K] (o : Ops K) (t : Targets K) (q : Phys K)
    (b : Block) : K :=
  if b.single then value o t q b 0 * value o t q b 0 else sq (vals o t q b) 0

/-- What `set_residuals` computes, block by block. -/
theorem setResiduals_eq [Zero K] [Add K] [Sub K] [Mul K] [Div K] (o : Ops K) (w : Weights K)
    (t : Targets K) (q : Phys K) (res : List K) (n : Nat)
    (hn : n = (entries o w q.nphi).length) (hr : res.length = n) :
    setResiduals o n w t q res = .ok
      (objLoop o ((blocks.map (Block.weight w)).zip (blocks.map (term o t q))) 0,
        blocks.map (term o t q),
        (entries o w q.nphi).map fun e => e.1.weight w * value o t q e.1 e.2) := by
  have hout : ((entries o w q.nphi).map fun e => e.1.weight w * value o t q e.1 e.2) =
      blocks.flatMap fun b => outs o (b.weight w) (vals o t q b) := by
    rw [entries, List.map_flatMap]
    exact congrArg (fun f => blocks.flatMap f) (funext fun b => (outs_vals o w t q b).symm)
  have hlen := congrArg List.length hout
  rw [List.length_map, ← hn] at hlen
  have hall : blocks.flatMap (fun b => outs o (b.weight w) (vals o t q b)) =
      outs o w.B20 (vals o t q .B20) ++
      (outs o w.iota (vals o t q .iota) ++
      (outs o w.elongation (vals o t q .elongation) ++
      (outs o w.curvature (vals o t q .curvature) ++
      (outs o w.R0 (vals o t q .R0) ++
      (outs o w.d2_volume_d_psi2 (vals o t q .d2_volume_d_psi2) ++
      (outs o w.DMerc_times_r2 (vals o t q .DMerc_times_r2) ++
      (outs o w.XY2 (vals o t q .XY2) ++
      (outs o w.XY2Prime (vals o t q .XY2Prime) ++
      (outs o w.XY2PrimePrime (vals o t q .XY2PrimePrime) ++
      (outs o w.Z2 (vals o t q .Z2) ++
      (outs o w.Z2Prime (vals o t q .Z2Prime) ++
      (outs o w.XY3 (vals o t q .XY3) ++
      (outs o w.XY3Prime (vals o t q .XY3Prime) ++
      (outs o w.XY3PrimePrime (vals o t q .XY3PrimePrime) ++
      (outs o w.grad_B (vals o t q .grad_B) ++
      (outs o w.grad_grad_B (vals o t q .grad_grad_B) ++
      (outs o w.r_singularity (vals o t q .r_singularity) ++
      (outs o w.axis_length (vals o t q .axis_length) ++
      (outs o w.standard_deviation_of_R (vals o t q .standard_deviation_of_R) ++
      (outs o w.B20_mean (vals o t q .B20_mean))))))))))))))))))))) := by
    simp only [blocks, List.flatMap_cons, List.flatMap_nil, List.append_nil]
    rfl
  rw [hout, hall]
  rw [hall] at hlen
  simp only [List.length_append] at hlen
  have h0 : At [] (⟨0, res⟩ : St K) ((outs o w.B20 (vals o t q .B20)).length +
      ((outs o w.iota (vals o t q .iota)).length +
      ((outs o w.elongation (vals o t q .elongation)).length +
      ((outs o w.curvature (vals o t q .curvature)).length +
      ((outs o w.R0 (vals o t q .R0)).length +
      ((outs o w.d2_volume_d_psi2 (vals o t q .d2_volume_d_psi2)).length +
      ((outs o w.DMerc_times_r2 (vals o t q .DMerc_times_r2)).length +
      ((outs o w.XY2 (vals o t q .XY2)).length +
      ((outs o w.XY2Prime (vals o t q .XY2Prime)).length +
      ((outs o w.XY2PrimePrime (vals o t q .XY2PrimePrime)).length +
      ((outs o w.Z2 (vals o t q .Z2)).length +
      ((outs o w.Z2Prime (vals o t q .Z2Prime)).length +
      ((outs o w.XY3 (vals o t q .XY3)).length +
      ((outs o w.XY3Prime (vals o t q .XY3Prime)).length +
      ((outs o w.XY3PrimePrime (vals o t q .XY3PrimePrime)).length +
      ((outs o w.grad_B (vals o t q .grad_B)).length +
      ((outs o w.grad_grad_B (vals o t q .grad_grad_B)).length +
      ((outs o w.r_singularity (vals o t q .r_singularity)).length +
      ((outs o w.axis_length (vals o t q .axis_length)).length +
      ((outs o w.standard_deviation_of_R (vals o t q .standard_deviation_of_R)).length +
      ((outs o w.B20_mean (vals o t q .B20_mean)).length + 0))))))))))))))))))))) :=
    ⟨rfl, res, rfl, hr.trans (hlen.trans rfl)⟩
  obtain ⟨st1, e1, h1⟩ := many_at o w.B20 (vals o t q .B20) 0 _ _ _ h0
  obtain ⟨st2, e2, h2⟩ := one_at o w.iota (value o t q .iota 0) _ _ _ h1
  obtain ⟨st3, e3, h3⟩ := many_at o w.elongation (vals o t q .elongation) 0 _ _ _ h2
  obtain ⟨st4, e4, h4⟩ := many_at o w.curvature (vals o t q .curvature) 0 _ _ _ h3
  obtain ⟨st5, e5, h5⟩ := many_at o w.R0 (vals o t q .R0) 0 _ _ _ h4
  obtain ⟨st6, e6, h6⟩ := one_at o w.d2_volume_d_psi2 (value o t q .d2_volume_d_psi2 0) _ _ _ h5
  obtain ⟨st7, e7, h7⟩ := one_at o w.DMerc_times_r2 (value o t q .DMerc_times_r2 0) _ _ _ h6
  obtain ⟨st8, e8, h8⟩ := many_at o w.XY2 (vals o t q .XY2) 0 _ _ _ h7
  obtain ⟨st9, e9, h9⟩ := many_at o w.XY2Prime (vals o t q .XY2Prime) 0 _ _ _ h8
  obtain ⟨st10, e10, h10⟩ := many_at o w.XY2PrimePrime (vals o t q .XY2PrimePrime) 0 _ _ _ h9
  obtain ⟨st11, e11, h11⟩ := many_at o w.Z2 (vals o t q .Z2) 0 _ _ _ h10
  obtain ⟨st12, e12, h12⟩ := many_at o w.Z2Prime (vals o t q .Z2Prime) 0 _ _ _ h11
  obtain ⟨st13, e13, h13⟩ := many_at o w.XY3 (vals o t q .XY3) 0 _ _ _ h12
  obtain ⟨st14, e14, h14⟩ := many_at o w.XY3Prime (vals o t q .XY3Prime) 0 _ _ _ h13
  obtain ⟨st15, e15, h15⟩ := many_at o w.XY3PrimePrime (vals o t q .XY3PrimePrime) 0 _ _ _ h14
  obtain ⟨st16, e16, h16⟩ := many_at o w.grad_B (vals o t q .grad_B) 0 _ _ _ h15
  obtain ⟨st17, e17, h17⟩ := many_at o w.grad_grad_B (vals o t q .grad_grad_B) 0 _ _ _ h16
  obtain ⟨st18, e18, h18⟩ := many_at o w.r_singularity (vals o t q .r_singularity) 0 _ _ _ h17
  obtain ⟨st19, e19, h19⟩ := one_at o w.axis_length (value o t q .axis_length 0) _ _ _ h18
  obtain ⟨st20, e20, h20⟩ := many_at o w.standard_deviation_of_R (vals o t q .standard_deviation_of_R) 0 _ _ _ h19
  obtain ⟨st21, e21, h21⟩ := many_at o w.B20_mean (vals o t q .B20_mean) 0 _ _ _ h20
  have i1 : vals o t q .iota = [value o t q .iota 0] := rfl
  have i2 : vals o t q .d2_volume_d_psi2 = [value o t q .d2_volume_d_psi2 0] := rfl
  have i3 : vals o t q .DMerc_times_r2 = [value o t q .DMerc_times_r2 0] := rfl
  have i4 : vals o t q .axis_length = [value o t q .axis_length 0] := rfl
  rw [i1, i2, i3, i4] at hlen
  obtain ⟨hj, rest, hres, hrest⟩ := h21
  obtain rfl : rest = [] := List.length_eq_zero_iff.1 hrest
  unfold setResiduals
  have haf : ∀ k, o.sqrt (q.d_l_d_phi k * (q.d_phi * o.ofNat q.nfp / q.axis_length)) =
      frac o q k := fun _ => rfl
  simp only [haf]
  rw [list_B20 o t q, list_elongation o t q, list_curvature o t q, list_R0 o t q,
    list_XY2 o t q, list_XY2Prime o t q, list_XY2PrimePrime o t q, list_Z2 o t q,
    list_Z2Prime o t q, list_XY3 o t q, list_XY3Prime o t q, list_XY3PrimePrime o t q,
    list_grad_B o t q, list_grad_grad_B o t q, list_r_singularity o t q,
    list_standard_deviation_of_R o t q, list_B20_mean o t q]
  simp only [value] at e2 e6 e7 e19
  simp only [e1, e2, e3, e4, e5, e6, e7, e8, e9, e10, e11, e12, e13, e14, e15, e16, e17, e18, e19, e20, e21, Except.bind]
  rw [if_pos (by rw [hj]; simp only [List.length_append, List.length_nil]; omega), hres]
  simp only [List.nil_append, List.append_nil, List.append_assoc]
  rfl

end Qsc.OptResid
