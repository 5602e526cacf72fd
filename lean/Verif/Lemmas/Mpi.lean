import Verif.Model.Mpi
import Mathlib.Tactic.Common

/-!
Facts about message passing systems without wildcard receives: all executions from a state that
can finish do finish, in the same state, whatever is buffered.
-/

namespace Qsc.Mpi
open Function

variable {ι M R : Type} [DecidableEq ι]

/-- No wildcard receive anywhere in the process. -/
inductive Det : Proc ι M R → Prop
  | done {r} : Det (.done r)
  | send {dst tag m k} : Det k → Det (.send dst tag m k)
  | recv {src tag} {k : M → Proc ι M R} : (∀ m, Det (k m)) → Det (.recv src tag k)
  | barrier {k} : Det k → Det (.barrier k)

/-- No wildcard receive anywhere in the system. -/
def St.Det (s : St ι M R) : Prop := ∀ i, Mpi.Det (s.procs i)

theorem det_update {f : ι → Proc ι M R} (h : ∀ i, Det (f i)) {i : ι} {p : Proc ι M R} (hp : Det p) :
    ∀ j, Det (update f i p j) := by
  intro j
  by_cases hj : j = i
  · subst hj; simpa using hp
  · rw [update_of_ne hj]; exact h j

theorem Step.det {cb : ι → ι → M → Prop} {w : Nat} {s t : St ι M R} (h : Step cb w s t)
    (hd : s.Det) : t.Det := by
  cases h with
  | @sendBuf _ i dst tag m k h1 h2 =>
    have := hd i
    rw [h1] at this
    cases this with
    | send hk => exact det_update hd hk
  | @recv _ i src tag k m rest h1 h2 =>
    have := hd i
    rw [h1] at this
    cases this with
    | recv hk => exact det_update hd (hk m)
  | @recvAny _ i src tag k m rest h1 h2 =>
    have := hd i
    rw [h1] at this
    cases this
  | @sync _ i j tag m k k' h1 h2 h3 =>
    have a := hd i
    have b := hd j
    rw [h1] at a
    rw [h2] at b
    cases a with
    | send ha => cases b with
      | recv hb => exact det_update (det_update hd ha) (hb m)
  | @syncAny _ i j tag m k k' h1 h2 h3 =>
    have b := hd j
    rw [h2] at b
    cases b
  | @barrier _ k h =>
    intro i
    have := hd i
    rw [h i] at this
    cases this with
    | barrier hk => exact hk

theorem Step.weight_pos {cb : ι → ι → M → Prop} {w : Nat} {s t : St ι M R} (h : Step cb w s t) :
    1 ≤ w := by cases h <;> omega

theorem Steps.det {cb : ι → ι → M → Prop} {w : Nat} {s t : St ι M R} (h : Steps cb w s t)
    (hd : s.Det) : t.Det := by
  induction h with
  | refl => exact hd
  | head h1 _ ih => exact ih (h1.det hd)

theorem Steps.trans {cb : ι → ι → M → Prop} {a b : Nat} {s t u : St ι M R} (h : Steps cb a s t)
    (h' : Steps cb b t u) : Steps cb (a + b) s u := by
  induction h with
  | refl => simpa using h'
  | head h1 _ ih =>
    rw [Nat.add_assoc]
    exact .head h1 (ih h')

theorem Steps.single {cb : ι → ι → M → Prop} {w : Nat} {s t : St ι M R} (h : Step cb w s t) :
    Steps cb w s t := by
  have := Steps.head h .refl
  simpa using this

theorem St.ext' {s t : St ι M R} (h1 : s.procs = t.procs) (h2 : s.chan = t.chan) : s = t := by
  cases s; cases t; simp_all

/-- Two steps from a state join again, with equal total weights. -/
theorem local_join {cb : ι → ι → M → Prop} {w1 w2 : Nat} {s s1 s2 : St ι M R} [Nonempty ι]
    (hd : s.Det) (h1 : Step cb w1 s s1) (h2 : Step cb w2 s s2) :
    ∃ t a b, Steps cb a s1 t ∧ Steps cb b s2 t ∧ w1 + a = w2 + b := by
  cases h1 with
  | @recvAny _ i src tag k m rest h1 h1' =>
    have := hd i
    rw [h1] at this
    cases this
  | @syncAny _ i j tag m k k' h1 h1' h1'' =>
    have := hd j
    rw [h1'] at this
    cases this
  | @barrier _ k hk =>
    cases h2 with
    | @barrier _ k' hk' =>
      have : k = k' := by
        funext i
        have := (hk i).symm.trans (hk' i)
        injection this
      subst this
      exact ⟨_, 0, 0, .refl, .refl, rfl⟩
    | @sendBuf _ i dst tag m k' h2 _ => rw [hk i] at h2; cases h2
    | @recv _ i src tag k' m rest h2 _ => rw [hk i] at h2; cases h2
    | @recvAny _ i src tag k' m rest h2 _ => rw [hk i] at h2; cases h2
    | @sync _ i j tag m k' k'' h2 _ _ => rw [hk i] at h2; cases h2
    | @syncAny _ i j tag m k' k'' h2 _ _ => rw [hk i] at h2; cases h2
  | @sendBuf _ i dst tag m k h1 hb =>
    cases h2 with
    | @recvAny _ i src tag k m rest h2 h2' =>
      have := hd i
      rw [h2] at this
      cases this
    | @syncAny _ i j tag m k k' h2 h2' h2'' =>
      have := hd j
      rw [h2'] at this
      cases this
    | @barrier _ k hk => rw [hk i] at h1; cases h1
    | @sendBuf _ i' dst' tag' m' k' h2 hb' =>
      by_cases hi : i = i'
      · subst hi
        rw [h1] at h2
        injection h2 with e1 e2 e3 e4
        subst e1 e2 e3 e4
        exact ⟨_, 0, 0, .refl, .refl, rfl⟩
      · have hc : ((i, dst, tag) : ι × ι × Nat) ≠ (i', dst', tag') := by
          intro h; exact hi (by injection h)
        have h3 := Step.sendBuf (canBuf := cb) (s := ⟨update s.procs i k, update s.chan
          (i, dst, tag) (s.chan (i, dst, tag) ++ [m])⟩) (i := i') (dst := dst') (tag := tag')
          (m := m') (k := k') (by dsimp only; rw [update_of_ne (Ne.symm hi)]; exact h2) hb'
        have h4 := Step.sendBuf (canBuf := cb) (s := ⟨update s.procs i' k', update s.chan
          (i', dst', tag') (s.chan (i', dst', tag') ++ [m'])⟩) (i := i) (dst := dst) (tag := tag)
          (m := m) (k := k) (by dsimp only; rw [update_of_ne hi]; exact h1) hb
        refine ⟨_, 1, 1, .single h3, ?_, rfl⟩
        dsimp only at h4 ⊢
        rw [update_of_ne hc.symm, update_comm hi, update_comm hc]
        rw [update_of_ne hc] at h4
        exact .single h4
    | @recv _ i' src tag' k' m' rest h2 hc' =>
      have hi : i ≠ i' := by
        intro h; subst h; rw [h1] at h2; cases h2
      by_cases hc : ((i, dst, tag) : ι × ι × Nat) = (src, i', tag')
      · -- same channel: push and pop commute
        have h3 := Step.recv (canBuf := cb) (s := ⟨update s.procs i k, update s.chan (i, dst, tag)
          (s.chan (i, dst, tag) ++ [m])⟩) (i := i') (src := src) (tag := tag') (k := k') (m := m')
          (rest := rest ++ [m]) (by dsimp only; rw [update_of_ne hi.symm]; exact h2)
          (by dsimp only; rw [← hc, update_self, hc, hc']; rfl)
        have h4 := Step.sendBuf (canBuf := cb) (s := ⟨update s.procs i' (k' m'), update s.chan
          (src, i', tag') rest⟩) (i := i) (dst := dst) (tag := tag) (m := m) (k := k)
          (by dsimp only; rw [update_of_ne hi]; exact h1) hb
        refine ⟨_, 1, 1, .single h3, ?_, rfl⟩
        have : (⟨update (update s.procs i k) i' (k' m'), update (update s.chan (i, dst, tag)
            (s.chan (i, dst, tag) ++ [m])) (src, i', tag') (rest ++ [m])⟩ : St ι M R)
            = ⟨update (update s.procs i' (k' m')) i k, update (update s.chan (src, i', tag') rest)
              (i, dst, tag) (update s.chan (src, i', tag') rest (i, dst, tag) ++ [m])⟩ := by
          apply St.ext'
          · exact update_comm hi _ _ _
          · dsimp only
            rw [hc, update_idem, update_idem, update_self]
        dsimp only at h4 ⊢
        rw [this]
        exact .single h4
      · have h3 := Step.recv (canBuf := cb) (s := ⟨update s.procs i k, update s.chan (i, dst, tag)
          (s.chan (i, dst, tag) ++ [m])⟩) (i := i') (src := src) (tag := tag') (k := k') (m := m')
          (rest := rest) (by dsimp only; rw [update_of_ne hi.symm]; exact h2)
          (by dsimp only; rw [update_of_ne (Ne.symm hc)]; exact hc')
        have h4 := Step.sendBuf (canBuf := cb) (s := ⟨update s.procs i' (k' m'), update s.chan
          (src, i', tag') rest⟩) (i := i) (dst := dst) (tag := tag) (m := m) (k := k)
          (by dsimp only; rw [update_of_ne hi]; exact h1) hb
        refine ⟨_, 1, 1, .single h3, ?_, rfl⟩
        dsimp only at h4 ⊢
        rw [update_comm hi, update_comm hc]
        rw [update_of_ne hc] at h4
        exact .single h4
    | @sync _ i' j tag' m' k' k'' h2 h2' hc' =>
      have hij' : i' ≠ j := by intro h; subst h; rw [h2] at h2'; cases h2'
      by_cases hi : i = i'
      · -- the same send, buffered or handed over
        subst hi
        rw [h1] at h2
        injection h2 with e1 e2 e3 e4
        subst e1 e2 e3 e4
        have h3 := Step.recv (canBuf := cb) (s := ⟨update s.procs i k, update s.chan (i, dst, tag)
          (s.chan (i, dst, tag) ++ [m])⟩) (i := dst) (src := i) (tag := tag) (k := k'') (m := m)
          (rest := []) (by dsimp only; rw [update_of_ne hij'.symm]; exact h2')
          (by dsimp only; rw [update_self, hc']; rfl)
        refine ⟨_, 1, 0, .single h3, ?_, rfl⟩
        dsimp only
        rw [update_idem, ← hc', update_eq_self]
        exact .refl
      · have hij : i ≠ j := by intro h; subst h; rw [h1] at h2'; cases h2'
        have hc : ((i, dst, tag) : ι × ι × Nat) ≠ (i', j, tag') := by
          intro h; exact hi (by injection h)
        have h3 := Step.sync (canBuf := cb) (s := ⟨update s.procs i k, update s.chan (i, dst, tag)
          (s.chan (i, dst, tag) ++ [m])⟩) (i := i') (j := j) (tag := tag') (m := m') (k := k')
          (k' := k'') (by dsimp only; rw [update_of_ne (Ne.symm hi)]; exact h2)
          (by dsimp only; rw [update_of_ne hij.symm]; exact h2')
          (by dsimp only; rw [update_of_ne hc.symm]; exact hc')
        have h4 := Step.sendBuf (canBuf := cb) (s := ⟨update (update s.procs i' k') j (k'' m'), s.chan⟩)
          (i := i) (dst := dst) (tag := tag) (m := m) (k := k)
          (by dsimp only; rw [update_of_ne hij, update_of_ne hi]; exact h1) hb
        refine ⟨_, 2, 1, .single h3, ?_, rfl⟩
        dsimp only at h4 ⊢
        rw [update_comm hi, update_comm hij]
        exact .single h4
  | @recv _ i src tag k m rest h1 hch =>
    cases h2 with
    | @recvAny _ i src tag k m rest h2 h2' =>
      have := hd i
      rw [h2] at this
      cases this
    | @syncAny _ i j tag m k k' h2 h2' h2'' =>
      have := hd j
      rw [h2'] at this
      cases this
    | @barrier _ k hk => rw [hk i] at h1; cases h1
    | @sendBuf _ i' dst tag' m' k' h2 hb =>
      have hi : i' ≠ i := by
        intro h; subst h; rw [h1] at h2; cases h2
      by_cases hc : ((i', dst, tag') : ι × ι × Nat) = (src, i, tag)
      · have h3 := Step.recv (canBuf := cb) (s := ⟨update s.procs i' k', update s.chan (i', dst, tag')
          (s.chan (i', dst, tag') ++ [m'])⟩) (i := i) (src := src) (tag := tag) (k := k) (m := m)
          (rest := rest ++ [m']) (by dsimp only; rw [update_of_ne hi.symm]; exact h1)
          (by dsimp only; rw [← hc, update_self, hc, hch]; rfl)
        have h4 := Step.sendBuf (canBuf := cb) (s := ⟨update s.procs i (k m), update s.chan
          (src, i, tag) rest⟩) (i := i') (dst := dst) (tag := tag') (m := m') (k := k')
          (by dsimp only; rw [update_of_ne hi]; exact h2) hb
        refine ⟨_, 1, 1, ?_, .single h3, rfl⟩
        have : (⟨update (update s.procs i' k') i (k m), update (update s.chan (i', dst, tag')
            (s.chan (i', dst, tag') ++ [m'])) (src, i, tag) (rest ++ [m'])⟩ : St ι M R)
            = ⟨update (update s.procs i (k m)) i' k', update (update s.chan (src, i, tag) rest)
              (i', dst, tag') (update s.chan (src, i, tag) rest (i', dst, tag') ++ [m'])⟩ := by
          apply St.ext'
          · exact update_comm hi _ _ _
          · dsimp only
            rw [hc, update_idem, update_idem, update_self]
        dsimp only at h4 ⊢
        rw [this]
        exact .single h4
      · have h3 := Step.recv (canBuf := cb) (s := ⟨update s.procs i' k', update s.chan (i', dst, tag')
          (s.chan (i', dst, tag') ++ [m'])⟩) (i := i) (src := src) (tag := tag) (k := k) (m := m)
          (rest := rest) (by dsimp only; rw [update_of_ne hi.symm]; exact h1)
          (by dsimp only; rw [update_of_ne (Ne.symm hc)]; exact hch)
        have h4 := Step.sendBuf (canBuf := cb) (s := ⟨update s.procs i (k m), update s.chan
          (src, i, tag) rest⟩) (i := i') (dst := dst) (tag := tag') (m := m') (k := k')
          (by dsimp only; rw [update_of_ne hi]; exact h2) hb
        refine ⟨_, 1, 1, ?_, .single h3, rfl⟩
        dsimp only at h4 ⊢
        rw [update_comm hi, update_comm hc]
        rw [update_of_ne hc] at h4
        exact .single h4
    | @recv _ i' src' tag' k' m' rest' h2 hch' =>
      by_cases hi : i = i'
      · subst hi
        rw [h1] at h2
        injection h2 with e1 e2 e3
        subst e1 e2 e3
        rw [hch] at hch'
        injection hch' with e1 e2
        subst e1 e2
        exact ⟨_, 0, 0, .refl, .refl, rfl⟩
      · have hc : ((src, i, tag) : ι × ι × Nat) ≠ (src', i', tag') := by
          intro h; injection h with _ h; injection h with h; exact hi h
        have h3 := Step.recv (canBuf := cb) (s := ⟨update s.procs i (k m), update s.chan (src, i, tag)
          rest⟩) (i := i') (src := src') (tag := tag') (k := k') (m := m') (rest := rest')
          (by dsimp only; rw [update_of_ne (Ne.symm hi)]; exact h2) (by dsimp only; rw [update_of_ne hc.symm]; exact hch')
        have h4 := Step.recv (canBuf := cb) (s := ⟨update s.procs i' (k' m'), update s.chan
          (src', i', tag') rest'⟩) (i := i) (src := src) (tag := tag) (k := k) (m := m)
          (rest := rest) (by dsimp only; rw [update_of_ne hi]; exact h1) (by dsimp only; rw [update_of_ne hc]; exact hch)
        refine ⟨_, 1, 1, .single h3, ?_, rfl⟩
        dsimp only at h4 ⊢
        rw [update_comm hi, update_comm hc]
        exact .single h4
    | @sync _ i' j tag' m' k' k'' h2 h2' hc' =>
      have hij' : i' ≠ j := by intro h; subst h; rw [h2] at h2'; cases h2'
      have hi : i ≠ i' := by intro h; subst h; rw [h1] at h2; cases h2
      by_cases hij : i = j
      · subst hij
        rw [h1] at h2'
        injection h2' with e1 e2 e3
        subst e1 e2
        rw [hch] at hc'
        cases hc'
      · have hc : ((src, i, tag) : ι × ι × Nat) ≠ (i', j, tag') := by
          intro h; injection h with _ h; injection h with h; exact hij h
        have h3 := Step.sync (canBuf := cb) (s := ⟨update s.procs i (k m), update s.chan (src, i, tag)
          rest⟩) (i := i') (j := j) (tag := tag') (m := m') (k := k') (k' := k'')
          (by dsimp only; rw [update_of_ne (Ne.symm hi)]; exact h2)
          (by dsimp only; rw [update_of_ne (Ne.symm hij)]; exact h2') (by dsimp only; rw [update_of_ne hc.symm]; exact hc')
        have h4 := Step.recv (canBuf := cb) (s := ⟨update (update s.procs i' k') j (k'' m'), s.chan⟩)
          (i := i) (src := src) (tag := tag) (k := k) (m := m) (rest := rest)
          (by dsimp only; rw [update_of_ne hij, update_of_ne hi]; exact h1) hch
        refine ⟨_, 2, 1, .single h3, ?_, rfl⟩
        dsimp only at h4 ⊢
        rw [update_comm hi, update_comm hij]
        exact .single h4
  | @sync _ i j tag m k k' h1 h1' hch =>
    have hne : i ≠ j := by intro h; subst h; rw [h1] at h1'; cases h1'
    cases h2 with
    | @recvAny _ i src tag k m rest h2 h2' =>
      have := hd i
      rw [h2] at this
      cases this
    | @syncAny _ i j tag m k k' h2 h2' h2'' =>
      have := hd j
      rw [h2'] at this
      cases this
    | @barrier _ k hk => rw [hk i] at h1; cases h1
    | @sendBuf _ i' dst tag' m' k'' h2 hb =>
      by_cases hi : i' = i
      · subst hi
        rw [h1] at h2
        injection h2 with e1 e2 e3 e4
        subst e1 e2 e3 e4
        have h3 := Step.recv (canBuf := cb) (s := ⟨update s.procs i' k, update s.chan (i', j, tag)
          (s.chan (i', j, tag) ++ [m])⟩) (i := j) (src := i') (tag := tag) (k := k') (m := m)
          (rest := []) (by dsimp only; rw [update_of_ne hne.symm]; exact h1')
          (by dsimp only; rw [update_self, hch]; rfl)
        refine ⟨_, 0, 1, ?_, .single h3, rfl⟩
        dsimp only
        rw [update_idem, ← hch, update_eq_self]
        exact .refl
      · have hij : i' ≠ j := by intro h; subst h; rw [h2] at h1'; cases h1'
        have hc : ((i', dst, tag') : ι × ι × Nat) ≠ (i, j, tag) := by
          intro h; exact hi (by injection h)
        have h3 := Step.sync (canBuf := cb) (s := ⟨update s.procs i' k'', update s.chan (i', dst, tag')
          (s.chan (i', dst, tag') ++ [m'])⟩) (i := i) (j := j) (tag := tag) (m := m) (k := k)
          (k' := k') (by dsimp only; rw [update_of_ne (Ne.symm hi)]; exact h1)
          (by dsimp only; rw [update_of_ne hij.symm]; exact h1')
          (by dsimp only; rw [update_of_ne hc.symm]; exact hch)
        have h4 := Step.sendBuf (canBuf := cb) (s := ⟨update (update s.procs i k) j (k' m), s.chan⟩)
          (i := i') (dst := dst) (tag := tag') (m := m') (k := k'')
          (by dsimp only; rw [update_of_ne hij, update_of_ne hi]; exact h2) hb
        refine ⟨_, 1, 2, ?_, .single h3, rfl⟩
        dsimp only at h4 ⊢
        rw [update_comm hi, update_comm hij]
        exact .single h4
    | @recv _ i' src tag' k'' m' rest h2 hch' =>
      have hi : i' ≠ i := by intro h; subst h; rw [h1] at h2; cases h2
      by_cases hij : i' = j
      · subst hij
        rw [h2] at h1'
        injection h1' with e1 e2 e3
        subst e1 e2
        rw [hch] at hch'
        cases hch'
      · have hc : ((src, i', tag') : ι × ι × Nat) ≠ (i, j, tag) := by
          intro h; injection h with _ h; injection h with h; exact hij h
        have h3 := Step.sync (canBuf := cb) (s := ⟨update s.procs i' (k'' m'), update s.chan
          (src, i', tag') rest⟩) (i := i) (j := j) (tag := tag) (m := m) (k := k) (k' := k')
          (by dsimp only; rw [update_of_ne (Ne.symm hi)]; exact h1)
          (by dsimp only; rw [update_of_ne (Ne.symm hij)]; exact h1') (by dsimp only; rw [update_of_ne hc.symm]; exact hch)
        have h4 := Step.recv (canBuf := cb) (s := ⟨update (update s.procs i k) j (k' m), s.chan⟩)
          (i := i') (src := src) (tag := tag') (k := k'') (m := m') (rest := rest)
          (by dsimp only; rw [update_of_ne hij, update_of_ne hi]; exact h2) hch'
        refine ⟨_, 1, 2, ?_, .single h3, rfl⟩
        dsimp only at h4 ⊢
        rw [update_comm hi, update_comm hij]
        exact .single h4
    | @sync _ a b tag' m' p p' h2 h2' hch' =>
      have hab : a ≠ b := by intro h; subst h; rw [h2] at h2'; cases h2'
      by_cases hi : a = i
      · subst hi
        rw [h1] at h2
        injection h2 with e1 e2 e3 e4
        subst e1 e2 e3 e4
        rw [h1'] at h2'
        injection h2' with _ _ e5
        subst e5
        exact ⟨_, 0, 0, .refl, .refl, rfl⟩
      · have haj : a ≠ j := by intro h; subst h; rw [h2] at h1'; cases h1'
        have hib : i ≠ b := by intro h; subst h; rw [h1] at h2'; cases h2'
        have hbj : b ≠ j := by
          intro h
          subst h
          rw [h1'] at h2'
          injection h2' with e1
          exact hi e1.symm
        have h3 := Step.sync (canBuf := cb) (s := ⟨update (update s.procs i k) j (k' m), s.chan⟩)
          (i := a) (j := b) (tag := tag') (m := m') (k := p) (k' := p')
          (by dsimp only; rw [update_of_ne haj, update_of_ne hi]; exact h2)
          (by dsimp only; rw [update_of_ne hbj, update_of_ne hib.symm]; exact h2') hch'
        have h4 := Step.sync (canBuf := cb) (s := ⟨update (update s.procs a p) b (p' m'), s.chan⟩)
          (i := i) (j := j) (tag := tag) (m := m) (k := k) (k' := k')
          (by dsimp only; rw [update_of_ne hib, update_of_ne (Ne.symm hi)]; exact h1)
          (by dsimp only; rw [update_of_ne hbj.symm, update_of_ne haj.symm]; exact h1') hch
        refine ⟨_, 2, 2, .single h3, ?_, rfl⟩
        dsimp only at h4 ⊢
        have : update (update (update (update s.procs i k) j (k' m)) a p) b (p' m')
            = update (update (update (update s.procs a p) b (p' m')) i k) j (k' m) := by
          funext x
          by_cases x1 : x = b
          · subst x1
            rw [update_self, update_of_ne hbj, update_of_ne hib.symm, update_self]
          · rw [update_of_ne x1]
            by_cases x2 : x = a
            · subst x2
              rw [update_self, update_of_ne haj, update_of_ne hi, update_of_ne x1, update_self]
            · rw [update_of_ne x2]
              by_cases x3 : x = j
              · subst x3; rw [update_self, update_self]
              · rw [update_of_ne x3, update_of_ne x3]
                by_cases x4 : x = i
                · subst x4; rw [update_self, update_self]
                · rw [update_of_ne x4, update_of_ne x4, update_of_ne x1, update_of_ne x2]
        rw [this]
        exact .single h4

/-- A finished system makes no step. -/
theorem Finished.no_step {cb : ι → ι → M → Prop} {w : Nat} {s t : St ι M R} [Nonempty ι]
    (hf : s.Finished) : ¬ Step cb w s t := by
  intro h
  cases h with
  | @sendBuf _ i dst tag m k h1 h2 => obtain ⟨r, hr⟩ := hf i; rw [h1] at hr; cases hr
  | @recv _ i src tag k m rest h1 h2 => obtain ⟨r, hr⟩ := hf i; rw [h1] at hr; cases hr
  | @recvAny _ i src tag k m rest h1 h2 => obtain ⟨r, hr⟩ := hf i; rw [h1] at hr; cases hr
  | @sync _ i j tag m k k' h1 h2 h3 => obtain ⟨r, hr⟩ := hf i; rw [h1] at hr; cases hr
  | @syncAny _ i j tag m k k' h1 h2 h3 => obtain ⟨r, hr⟩ := hf i; rw [h1] at hr; cases hr
  | @barrier _ k h =>
    obtain ⟨i⟩ := (inferInstance : Nonempty ι)
    obtain ⟨r, hr⟩ := hf i; rw [h i] at hr; cases hr

/-- Random descent: if a system without wildcard receives can finish with weight `n`, every
execution has weight at most `n` and can be completed to the same final state. -/
theorem all_finish {cb : ι → ι → M → Prop} [Nonempty ι] (n : Nat) :
    ∀ {s t : St ι M R}, s.Det → t.Finished → Steps cb n s t →
      ∀ {m : Nat} {s' : St ι M R}, Steps cb m s s' → ∃ r, m + r = n ∧ Steps cb r s' t := by
  induction n using Nat.strongRecOn with
  | ind n ih =>
    intro s t hd hf hn m s' hm
    cases hm with
    | refl => exact ⟨n, by omega, hn⟩
    | @head w2 m' _ s2 _ h2 hm' =>
      cases hn with
      | refl => exact absurd h2 (Finished.no_step hf)
      | @head w1 n' _ s1 _ h1 hn' =>
        obtain ⟨u, a, b, ha, hb, hab⟩ := local_join hd h1 h2
        have p1 := h1.weight_pos
        have p2 := h2.weight_pos
        obtain ⟨r1, e1, q1⟩ := ih n' (by omega) (h1.det hd) hf hn' ha
        have q2 := hb.trans q1
        obtain ⟨r2, e2, q3⟩ := ih (b + r1) (by omega) (h2.det hd) hf q2 hm'
        exact ⟨r2, by omega, q3⟩

/-- Steps that need no buffering are possible under every policy. -/
theorem Step.mono {cb cb' : ι → ι → M → Prop} (h : ∀ i j m, cb i j m → cb' i j m) {w : Nat}
    {s t : St ι M R} (hs : Step cb w s t) : Step cb' w s t := by
  cases hs with
  | sendBuf h1 h2 => exact .sendBuf h1 (h _ _ _ h2)
  | recv h1 h2 => exact .recv h1 h2
  | recvAny h1 h2 => exact .recvAny h1 h2
  | sync h1 h2 h3 => exact .sync h1 h2 h3
  | syncAny h1 h2 h3 => exact .syncAny h1 h2 h3
  | barrier k h => exact .barrier k h

theorem Steps.mono {cb cb' : ι → ι → M → Prop} (h : ∀ i j m, cb i j m → cb' i j m) {w : Nat}
    {s t : St ι M R} (hs : Steps cb w s t) : Steps cb' w s t := by
  induction hs with
  | refl => exact .refl
  | head h1 _ ih => exact .head (h1.mono h) ih

/-- The steps of a system in which every send is buffered. -/
inductive BStep : St ι M R → St ι M R → Prop
  | send {s : St ι M R} {i dst tag m k} : s.procs i = .send dst tag m k →
      BStep s
        ⟨update s.procs i k, update s.chan (i, dst, tag) (s.chan (i, dst, tag) ++ [m])⟩
  | recv {s : St ι M R} {i src tag k m rest} : s.procs i = .recv src tag k →
      s.chan (src, i, tag) = m :: rest →
      BStep s ⟨update s.procs i (k m), update s.chan (src, i, tag) rest⟩
  | recvAny {s : St ι M R} {i src tag k m rest} : s.procs i = .recvAny k →
      s.chan (src, i, tag) = m :: rest →
      BStep s ⟨update s.procs i (k src m), update s.chan (src, i, tag) rest⟩
  | barrier {s : St ι M R} (k : ι → Proc ι M R) : (∀ i, s.procs i = .barrier (k i)) →
      BStep s ⟨k, s.chan⟩

/-- An invariant with a count-down that every buffered step decreases by one is decreased by the
weight of every execution, whatever is buffered: a hand-over is a buffered send and a receive. -/
theorem Step.invariant {cb : ι → ι → M → Prop} {Inv : Nat → St ι M R → Prop}
    (h : ∀ {r s t}, BStep s t → Inv r s → ∃ r', r = r' + 1 ∧ Inv r' t)
    {w r : Nat} {s t : St ι M R} (hs : Step cb w s t) (hi : Inv r s) :
    ∃ r', r = w + r' ∧ Inv r' t := by
  have one : ∀ {r s t}, BStep s t → Inv r s → ∃ r', r = 1 + r' ∧ Inv r' t := by
    intro r s t hb hi
    obtain ⟨r', e, h'⟩ := h hb hi
    exact ⟨r', by omega, h'⟩
  cases hs with
  | sendBuf h1 _ => exact one (.send h1) hi
  | recv h1 h2 => exact one (.recv h1 h2) hi
  | recvAny h1 h2 => exact one (.recvAny h1 h2) hi
  | barrier k hk => exact one (.barrier k hk) hi
  | @sync _ i j tag m k k' h1 h2 h3 =>
    have hne : j ≠ i := by intro e; subst e; rw [h1] at h2; cases h2
    obtain ⟨r1, e1, i1⟩ := h (.send h1) hi
    obtain ⟨r2, e2, i2⟩ := h (.recv (i := j) (src := i) (tag := tag) (k := k') (m := m)
      (rest := []) (by dsimp only; rw [update_of_ne hne]; exact h2)
      (by dsimp only; rw [update_self, h3]; rfl)) i1
    dsimp only at i2
    rw [update_idem, ← h3, update_eq_self] at i2
    exact ⟨r2, by omega, i2⟩
  | @syncAny _ i j tag m k k' h1 h2 h3 =>
    have hne : j ≠ i := by intro e; subst e; rw [h1] at h2; cases h2
    obtain ⟨r1, e1, i1⟩ := h (.send h1) hi
    obtain ⟨r2, e2, i2⟩ := h (.recvAny (i := j) (src := i) (tag := tag) (k := k') (m := m)
      (rest := []) (by dsimp only; rw [update_of_ne hne]; exact h2)
      (by dsimp only; rw [update_self, h3]; rfl)) i1
    dsimp only at i2
    rw [update_idem, ← h3, update_eq_self] at i2
    exact ⟨r2, by omega, i2⟩

theorem Steps.invariant {cb : ι → ι → M → Prop} {Inv : Nat → St ι M R → Prop}
    (h : ∀ {r s t}, BStep s t → Inv r s → ∃ r', r = r' + 1 ∧ Inv r' t)
    {w r : Nat} {s t : St ι M R} (hs : Steps cb w s t) (hi : Inv r s) :
    ∃ r', r = w + r' ∧ Inv r' t := by
  induction hs generalizing r with
  | refl => exact ⟨r, by omega, hi⟩
  | head h1 _ ih =>
    obtain ⟨r1, e1, i1⟩ := h1.invariant h hi
    obtain ⟨r2, e2, i2⟩ := ih i1
    exact ⟨r2, by omega, i2⟩

/-- No sends may be buffered. -/
def noBuf : ι → ι → M → Prop := fun _ _ _ => False

end Qsc.Mpi
