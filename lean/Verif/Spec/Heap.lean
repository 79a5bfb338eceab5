import Verif.Model.Heap

/-! What it means that dynamic memory is used properly, in terms of the sequence of allocations, accesses and deletions. -/

namespace CenCalVM
namespace Mem

/-- The block is there: allocated and not deleted. -/
def Live (log : List Event) (b : Block) : Prop := Event.new b ∈ log ∧ ∀ arr, Event.delete b.id arr ∉ log

/-- Every access is to an element of a block that is there, and every `delete` is of a block that is there, in the form that
matches the `new`. -/
def Proper (log : List Event) : Prop :=
  ∀ pre post e, log = pre ++ e :: post →
    (∀ p (i : Int), e = .access p i → ∃ b, b.id = p ∧ Live pre b ∧ 0 ≤ i ∧ i < b.size) ∧
      ∀ p arr, e = .delete p arr → ∃ b, b.id = p ∧ Live pre b ∧ b.arr = arr

/-- Every block allocated has been deleted. -/
def AllDeleted (log : List Event) : Prop := ∀ b, Event.new b ∈ log → ∃ arr, Event.delete b.id arr ∈ log

end Mem
end CenCalVM
