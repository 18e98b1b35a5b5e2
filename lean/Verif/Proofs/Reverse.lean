import Verif.Model.Strings

/-!
# The swapping loop of `reverse`
-/

namespace Fasttld

theorem reverseLoop_eq {α : Type} (d : α) (fuel : Nat) (A M B : List α) (i j : Nat)
    (hA : A.length = i) (hB : B.length = i) (hj : j = i + M.length - 1) (hf : M.length ≤ fuel) :
    reverseLoop d fuel (A ++ M ++ B) i j = A ++ M.reverse ++ B := by
  induction fuel generalizing A M B i j with
  | zero =>
    have : M = [] := List.length_eq_zero_iff.1 (by omega)
    subst this; rfl
  | succ fuel ih =>
    rw [reverseLoop]
    split
    · rename_i hlt
      cases M with
      | nil => simp at hj; omega
      | cons x M =>
        rcases List.eq_nil_or_concat M with rfl | ⟨M, y, rfl⟩
        · simp at hj; omega
        · simp only [List.length_cons, List.length_concat] at hj hf
          have hj' : j = (A ++ x :: M).length := by simp; omega
          have e : A ++ (x :: M.concat y) ++ B = (A ++ x :: M) ++ y :: B := by simp
          have hy : (A ++ (x :: M.concat y) ++ B).getD j d = y := by
            rw [e, hj']; simp [List.getD]
          have hx : (A ++ (x :: M.concat y) ++ B).getD i d = x := by
            rw [← hA]; simp [List.getD]
          rw [hy, hx]
          have hs : ((A ++ (x :: M.concat y) ++ B).set i y).set j x = (A ++ [y]) ++ M ++ (x :: B) := by
            have h1 : (A ++ (x :: M.concat y) ++ B).set i y = (A ++ y :: M) ++ y :: B := by
              rw [← hA]; simp
            rw [h1, hj']
            have : (A ++ x :: M).length = (A ++ y :: M).length := by simp
            rw [this]; simp
          rw [hs, ih (A ++ [y]) M (x :: B) (i + 1) (j - 1) (by simp [hA]) (by simp [hB]) (by omega) (by omega)]
          simp
    · rename_i hge
      have : M.length ≤ 1 := by omega
      match M, this with
      | [], _ => rfl
      | [x], _ => rfl

theorem reverse_eq (l : List Bytes) : reverse l = l.reverse := by
  have := reverseLoop_eq ([] : Bytes) l.length [] l [] 0 (l.length - 1) rfl rfl (by simp) (Nat.le_refl _)
  simpa [reverse] using this

end Fasttld
