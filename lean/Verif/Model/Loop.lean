/-!
# Loops

C++ `for (j = 0; j < n; j++) body` with the loop state passed explicitly.
-/

namespace Qsc

/-- `for (j = 0; j < n; j++) s = body(j, s);` -/
def forLoop {σ : Type _} : Nat → (Nat → σ → σ) → σ → σ
  | 0, _, s => s
  | n + 1, body, s => body n (forLoop n body s)

@[simp] theorem forLoop_zero {σ : Type _} (body : Nat → σ → σ) (s : σ) :
    forLoop 0 body s = s := rfl

@[simp] theorem forLoop_succ {σ : Type _} (n : Nat) (body : Nat → σ → σ) (s : σ) :
    forLoop (n + 1) body s = body n (forLoop n body s) := rfl

end Qsc
