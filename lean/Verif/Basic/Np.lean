import Verif.Basic.Py

/-!
# numpy vocabulary: broadcasting of one-dimensional arrays
-/

namespace Verif

/-- Element-wise binary operation of two one-dimensional numpy arrays, with broadcasting of an array
of length one; other length mismatches are a `ValueError`. A scalar operand is represented by an
array of length one, which gives the same values. -/
def npZip {α β γ : Type} (op : α → β → γ) (a : List α) (b : List β) : Except PyErr (List γ) :=
  if a.length = b.length then .ok (List.zipWith op a b)
  else match a, b with
    | [x], _ => .ok (b.map (op x))
    | _, [y] => .ok (a.map (op · y))
    | _, _ => .error .valueError

theorem npZip_same {α β γ : Type} (op : α → β → γ) (a : List α) (b : List β)
    (h : a.length = b.length) : npZip op a b = .ok (List.zipWith op a b) := by
  simp [npZip, h]

theorem npZip_right_single {α β γ : Type} (op : α → β → γ) (a : List α) (y : β) :
    npZip op a [y] = .ok (a.map (op · y)) := by
  unfold npZip
  match a with
  | [] => simp
  | [x] => simp
  | x :: z :: r => simp

end Verif
