import Verif.Model.Setup
import Mathlib.Data.List.Nodup
import Mathlib.Algebra.Order.Ring.Rat
import Mathlib.Algebra.Order.Ring.Abs

/-!
# Properties C34, C35, C36, C49 and C52: setting up a calculation
-/

namespace Qsc.Setup

open Qsc.OptState (Err Config)

/-! ## C34 -/

/-- Exactly three strings are accepted, and the flags say which orders are computed. -/
theorem validate_spec (s : String) :
    (∀ o, validate s = .ok o → (s = "r1" ∨ s = "r2" ∨ s = "r2.1") ∧
      (o.atLeastR2 = true ↔ s ≠ "r1") ∧ (o.r2p1 = true ↔ s = "r2.1") ∧
      (o.r3 = true ↔ s = "r2.1")) ∧
    ((s = "r1" ∨ s = "r2" ∨ s = "r2.1") → ∃ o, validate s = .ok o) ∧
    (¬ (s = "r1" ∨ s = "r2" ∨ s = "r2.1") →
      validate s = .error (.throw "Invalid setting for order_r_option")) := by
  unfold validate
  by_cases h1 : s = "r1"
  · subst h1; simp +decide
  by_cases h2 : s = "r2"
  · subst h2; simp +decide
  by_cases h3 : s = "r2.1"
  · subst h3; simp +decide
  simp [h1, h2, h3]

example : validate "r2.1" = .ok ⟨true, true, true⟩ := by rfl
example : validate "r3" = .error (.throw "Invalid setting for order_r_option") := by rfl
/-- Comparison is exact: case and spaces matter. -/
example : validate "R1" = .error (.throw "Invalid setting for order_r_option") := by rfl

/-! ## C35 -/

/-- The resolution is odd, at least the requested value and at most one more. -/
theorem odd_spec (n : Nat) : oddNphi n % 2 = 1 ∧ n ≤ oddNphi n ∧ oddNphi n ≤ n + 1 ∧
    (n % 2 = 1 → oddNphi n = n) := by
  unfold oddNphi; split <;> omega

/-- Allocating again changes nothing. -/
theorem allocate_idempotent (q q' : Obj) (h : allocate q = .ok q') : allocate q' = .ok q' := by
  obtain ⟨o, n, d⟩ := q
  cases o with
  | none => simp [allocate] at h
  | some o =>
    have hodd : oddNphi (oddNphi n) = oddNphi n := (odd_spec (oddNphi n)).2.2.2 (odd_spec n).1
    simp only [allocate, Except.ok.injEq] at h
    subst h
    simp only [allocate, hodd, Except.ok.injEq, Obj.mk.injEq, true_and]
    funext x
    simp only [resize]
    split <;> rfl

theorem resize_mem (n : Nat) (l : List (String × Dims)) (dims : String → Option (List Nat))
    (hl : (l.map Prod.fst).Nodup) (x : String) (d : Dims) (h : (x, d) ∈ l) :
    resize n l dims x = some (d.eval n) := by
  unfold resize
  cases hf : l.find? fun a => a.1 = x with
  | some a =>
    have h1 := List.find?_some hf
    have h2 := List.mem_of_find?_eq_some hf
    obtain ⟨y, d'⟩ := a
    obtain rfl : y = x := by simpa using h1
    have : d' = d := by
      have := List.inj_on_of_nodup_map hl h2 h rfl
      exact congrArg Prod.snd this
    rw [this]
  | none =>
    have := List.find?_eq_none.1 hf (x, d) h
    simp at this

theorem arrays_nodup : (((baseArrays ++ r2Arrays) ++ r2p1Arrays ++ r3Arrays).map
    Prod.fst).Nodup := by decide +kernel

theorem arrays_sub (o : Order) :
    (arrays o).Sublist ((baseArrays ++ r2Arrays) ++ r2p1Arrays ++ r3Arrays) := by
  unfold arrays
  refine List.Sublist.append (List.Sublist.append (List.Sublist.append (List.Sublist.refl _) ?_)
    ?_) ?_ <;> split <;> simp

/-- After allocation every array that belongs to the order has the dimensions of the new grid,
whatever it had before. -/
theorem allocate_dims (q q' : Obj) (o : Order) (ho : q.order = some o) (h : allocate q = .ok q') :
    q'.order = some o ∧ q'.nphi = oddNphi q.nphi ∧
      ∀ x d, (x, d) ∈ arrays o → q'.dims x = some (d.eval q'.nphi) := by
  unfold allocate at h
  rw [ho] at h
  simp only [Except.ok.injEq] at h
  subst h
  exact ⟨rfl, rfl, fun x d hx => resize_mem _ _ _
    (List.Sublist.nodup ((arrays_sub o).map _) arrays_nodup) x d hx⟩

/-- The arrays with one value per grid point that the first order solution needs. -/
def profiles1 : List String :=
  ["phi", "R0", "Z0", "R0p", "Z0p", "R0pp", "Z0pp", "R0ppp", "Z0ppp", "curvature", "torsion",
   "d_l_d_phi", "d2_l_d_phi2", "Boozer_toroidal_angle", "etabar_squared_over_curvature_squared",
   "X1s", "X1c", "Y1s", "Y1c", "sigma", "elongation", "state", "residual", "L_grad_B"]

/-- The arrays read by the optimizer's residuals (optimize.cpp 553-841). -/
def profilesOpt : List String :=
  ["d_l_d_phi", "B20_anomaly", "elongation", "curvature", "R0", "B20", "r_hat_singularity_robust",
   "X20", "X2s", "X2c", "Y20", "Y2s", "Y2c", "d_X20_d_varphi", "d_X2s_d_varphi",
   "d_X2c_d_varphi", "d_Y20_d_varphi", "d_Y2s_d_varphi", "d_Y2c_d_varphi", "d2_X20_d_varphi2",
   "d2_X2s_d_varphi2", "d2_X2c_d_varphi2", "d2_Y20_d_varphi2", "d2_Y2s_d_varphi2",
   "d2_Y2c_d_varphi2", "Z20", "Z2s", "Z2c", "d_Z20_d_varphi", "d_Z2s_d_varphi",
   "d_Z2c_d_varphi", "X3c1", "Y3c1", "Y3s1", "d_X3c1_d_varphi", "d_Y3c1_d_varphi",
   "d_Y3s1_d_varphi", "d2_X3c1_d_varphi2", "d2_Y3c1_d_varphi2", "d2_Y3s1_d_varphi2"]

/-- After `init`, at every order: the grid is odd, the first order profiles have one value per grid
point, the operators are square on the grid, and the helicity counter has one more. -/
theorem init_dims (s : String) (q q' : Obj) (h : init s q = .ok q') :
    q'.nphi % 2 = 1 ∧ (∀ x ∈ profiles1, q'.dims x = some [q'.nphi]) ∧
    (∀ x ∈ ["d_d_phi", "d_d_varphi", "work_matrix"], q'.dims x = some [q'.nphi, q'.nphi]) ∧
    q'.dims "quadrant" = some [q'.nphi + 1] ∧
    q'.dims "grad_B_tensor" = some [q'.nphi, 3, 3] := by
  unfold init at h
  cases hv : validate s with
  | error e => rw [hv] at h; simp [Except.bind] at h
  | ok o =>
    rw [hv] at h
    obtain ⟨-, h2, h3⟩ := allocate_dims { q with order := some o } q' o rfl h
    have hb : ∀ x d, (x, d) ∈ baseArrays → q'.dims x = some (d.eval q'.nphi) := by
      intro x d hx
      refine h3 x d ?_
      unfold arrays
      simp [hx]
    refine ⟨by rw [h2]; exact (odd_spec _).1, fun x hx => ?_, fun x hx => ?_, ?_, ?_⟩
    · refine hb x .vec ?_
      revert x
      decide +kernel
    · refine hb x .mat ?_
      revert x
      decide +kernel
    · exact hb _ .vec1 (by decide +kernel)
    · exact hb _ .n33 (by decide +kernel)

/-- At order r2.1, the only order the optimizer runs, all arrays in its residuals have one value per
grid point and the tensors 9 and 27. -/
theorem init_dims_opt (q q' : Obj) (h : init "r2.1" q = .ok q') :
    (∀ x ∈ profilesOpt, q'.dims x = some [q'.nphi]) ∧
    q'.dims "grad_B_tensor" = some [q'.nphi, 3, 3] ∧
    q'.dims "grad_grad_B_tensor" = some [q'.nphi, 3, 3, 3] ∧
    q'.dims "r2_matrix" = some [2 * q'.nphi, 2 * q'.nphi] ∧
    q'.dims "r2_rhs" = some [2 * q'.nphi] := by
  obtain ⟨-, -, h3⟩ := allocate_dims { q with order := some ⟨true, true, true⟩ } q' _ rfl h
  refine ⟨fun x hx => ?_, h3 _ .n33 (by decide +kernel), h3 _ .n333 (by decide +kernel),
    h3 _ .mat2 (by decide +kernel), h3 _ .vec2 (by decide +kernel)⟩
  refine h3 x .vec ?_
  revert x
  decide +kernel

example : (init "r1" (fresh 30)).map (fun q => (q.nphi, q.dims "sigma", q.dims "B20")) =
    .ok (31, some [31], none) := by rfl

/-! ## C52 -/

/-- Single runs and scans set the order flags before they are read. -/
theorem flags_set (s : String) (n : Nat) (hs : s = "r1" ∨ s = "r2" ∨ s = "r2.1") :
    (∃ q, startSingle s n = .ok q) ∧ (∃ q, startScan s n = .ok q) := by
  rcases hs with rfl | rfl | rfl <;> exact ⟨⟨_, rfl⟩, ⟨_, rfl⟩⟩

/-- An optimization reads them before they are set, for every order and resolution. -/
theorem opt_reads_unset (s : String) (n : Nat) :
    startOpt s n = .error (.undefined "order flags") := rfl

/-- Whatever the flags happened to be, the following `init` leaves the same grid and the same
dimensions of all arrays of the order as without the early allocation. -/
theorem opt_recovers (s : String) (q q1 q2 q3 : Obj) (hq : allocate q = .ok q1)
    (h2 : init s q1 = .ok q2) (h3 : init s q = .ok q3) :
    q2.order = q3.order ∧ q2.nphi = q3.nphi ∧
      ∀ o, q2.order = some o → ∀ x d, (x, d) ∈ arrays o → q2.dims x = q3.dims x := by
  unfold init at h2 h3
  cases hv : validate s with
  | error e => rw [hv] at h2; simp [Except.bind] at h2
  | ok o =>
    rw [hv] at h2 h3
    obtain ⟨a1, b1, c1⟩ := allocate_dims { q1 with order := some o } _ o rfl h2
    obtain ⟨a2, b2, c2⟩ := allocate_dims { q with order := some o } _ o rfl h3
    have hn : q1.nphi = oddNphi q.nphi := by
      cases ho : q.order with
      | none => unfold allocate at hq; rw [ho] at hq; simp at hq
      | some o' => exact (allocate_dims q q1 o' ho hq).2.1
    have hnn : q2.nphi = q3.nphi := by
      rw [b1, b2]
      exact (congrArg oddNphi hn).trans ((odd_spec (oddNphi q.nphi)).2.2.2 (odd_spec _).1)
    refine ⟨a1.trans a2.symm, hnn, ?_⟩
    intro o' ho' x d hx
    obtain rfl : o = o' := Option.some.inj (a1.symm.trans ho')
    rw [c1 x d hx, c2 x d hx, hnn]

/-! ## C36 -/

/-- The names of the calculations. -/
def jobName : Job → String
  | .single => "single"
  | .random => "random"
  | .opt => "opt"
  | .multiopt => "multiopt"
  | .multioptScan => "multiopt_scan"

/-- With one argument the driver runs a calculation exactly if it is asked for by name, `single` if
no name is given, and starts MPI exactly for the two scans; otherwise it throws.  With another
number of arguments it only prints the usage. -/
theorem driver_spec (argc : Nat) (option : Option String) :
    (argc ≠ 2 → driver argc option = .usage) ∧
    (argc = 2 → ∀ j m, driver argc option = .run j m ↔
      option.getD "single" = jobName j ∧ (m = true ↔ j = .random ∨ j = .multioptScan)) ∧
    (argc = 2 → (driver argc option = .throw ↔ ∀ j, option.getD "single" ≠ jobName j)) := by
  refine ⟨fun h => by simp [driver, h], fun h j m => ?_, fun h => ?_⟩
  · subst h
    generalize hg : option.getD "single" = g
    simp only [driver, hg, ne_eq, not_true_eq_false, if_false]
    by_cases h1 : g = "single"
    · subst h1; cases j <;> cases m <;> simp +decide
    by_cases h2 : g = "random"
    · subst h2; cases j <;> cases m <;> simp +decide
    by_cases h3 : g = "opt"
    · subst h3; cases j <;> cases m <;> simp +decide
    by_cases h4 : g = "multiopt"
    · subst h4; cases j <;> cases m <;> simp +decide
    by_cases h5 : g = "multiopt_scan"
    · subst h5; cases j <;> cases m <;> simp +decide
    cases j <;> simp [jobName, h1, h2, h3, h4, h5]
  · subst h
    generalize hg : option.getD "single" = g
    simp only [driver, hg, ne_eq, not_true_eq_false, if_false]
    constructor
    · intro h j hj
      subst hj
      cases j <;> simp +decide at h
    · intro h
      have h1 : ¬g = "single" := h .single
      have h2 : ¬g = "random" := h .random
      have h3 : ¬g = "opt" := h .opt
      have h4 : ¬g = "multiopt" := h .multiopt
      have h5 : ¬g = "multiopt_scan" := h .multioptScan
      rw [if_neg h1, if_neg h2, if_neg h3, if_neg h4, if_neg h5]

/-- The README documents the random scan as `general_option = "scan"`: this throws. -/
theorem documented_scan_throws : driver 2 (some "scan") = .throw := by rfl

example : driver 2 none = .run .single false := by rfl
example : driver 1 (some "opt") = .usage := by rfl

/-! ## C49 -/

/-- The advertised names. -/
def configNames : List String :=
  ["r1 section 5.1", "r1 section 5.2", "r1 section 5.3", "r2 section 5.1", "r2 section 5.2",
   "r2 section 5.3", "r2 section 5.4", "r2 section 5.5", "1", "2", "3", "4", "5"]

/-- What makes a configuration usable: four axis arrays of one length, at least one period, an order
that is accepted, a nonzero eta_bar, and an axis that stays away from R = 0 (the mean major radius
exceeds the sum of the other amplitudes). -/
def WellFormed (i : Input) : Prop :=
  i.q.R0s.length = i.q.R0c.length ∧ i.q.Z0c.length = i.q.R0c.length ∧
  i.q.Z0s.length = i.q.R0c.length ∧ 1 ≤ i.nfp ∧ i.q.etaBar ≠ 0 ∧
  (i.order = "r1" ∨ i.order = "r2" ∨ i.order = "r2.1") ∧
  ∃ r rest, i.q.R0c = r :: rest ∧ (rest.map abs).sum + (i.q.R0s.map abs).sum < r

instance (i : Input) : Decidable (WellFormed i) := by
  unfold WellFormed
  have : Decidable (∃ r rest, i.q.R0c = r :: rest ∧
      (rest.map abs).sum + (i.q.R0s.map abs).sum < r) :=
    match h : i.q.R0c with
    | [] => .isFalse (by simp)
    | r :: rest => decidable_of_iff ((rest.map abs).sum + (i.q.R0s.map abs).sum < r) (by
        constructor
        · intro h; exact ⟨r, rest, rfl, h⟩
        · rintro ⟨r', rest', he, h⟩
          obtain ⟨rfl, rfl⟩ := List.cons.inj he
          exact h)
  infer_instance

/-- The configuration with a given name is well formed. -/
def namedOk (name : String) : Bool :=
  match named name with
  | .ok i => decide (WellFormed i)
  | .error _ => false

theorem named_all : ∀ s ∈ configNames, namedOk s = true := by decide +kernel

/-- The advertised names give well formed configurations that `init` accepts, on an odd grid; every
other name throws. -/
theorem named_spec (s : String) :
    (s ∈ configNames → ∃ i q, named s = .ok i ∧ WellFormed i ∧
      init i.order (fresh 15) = .ok q ∧ q.nphi % 2 = 1) ∧
    (s ∉ configNames → named s = .error (.throw "Configuration name not recognized")) := by
  constructor
  · intro h
    have hs := named_all s h
    unfold namedOk at hs
    cases hn : named s with
    | error e => rw [hn] at hs; simp at hs
    | ok i =>
      rw [hn] at hs
      have hw : WellFormed i := by simpa using hs
      obtain ⟨q, hq⟩ := (flags_set i.order 15 hw.2.2.2.2.2.1).1
      exact ⟨i, q, rfl, hw, hq, (init_dims _ _ _ hq).1⟩
  · intro h
    simp only [configNames, List.mem_cons, List.not_mem_nil, or_false, not_or] at h
    obtain ⟨h1, h2, h3, h4, h5, h6, h7, h8, g1, g2, g3, g4, g5⟩ := h
    simp [named, *]

/-- The short names are aliases. -/
theorem named_alias : named "1" = named "r2 section 5.1" ∧ named "2" = named "r2 section 5.2" ∧
    named "3" = named "r2 section 5.3" ∧ named "4" = named "r2 section 5.4" ∧
    named "5" = named "r2 section 5.5" := ⟨rfl, rfl, rfl, rfl, rfl⟩

end Qsc.Setup
