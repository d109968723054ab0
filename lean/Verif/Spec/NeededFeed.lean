import Verif.Spec.RatShift
/-! # Specification: how many probes are needed for each order vector -/
namespace FireFly.Needed

/-- the number of entries that are at least `o` -/
def atLeast (E : List ℕ) (o : ℕ) : ℕ := (E.filter (fun e => decide (o ≤ e))).length

/-- the largest entry -/
def largest (E : List ℕ) : ℕ := E.foldr max 0

/-- Each entry of `E` stands for a part that needs the order vectors `(1, …, 1), …, (e, …, e)`: for the order vector `(o, …, o)` there are as many unknown values, and probes, as there are entries `e ≥ o`. -/
def requests (E : List ℕ) : List (ℕ × ℕ) := (List.range (largest E)).map (fun i => (i + 1, atLeast E (i + 1)))

/-- With shift: the number of monomials in the part of degree `k`, those of the polynomial and those the shift produces -/
def monos (p : RShift.Prior) (k : ℕ) : ℕ := ((RShift.exps p).filter (fun e => decide (e.sum = k)) ++ p.shifts k).toFinset.card

/-- With shift: the number of order vectors the part of degree `k` needs. It is solved with the monomials of the shift if these are few; otherwise it has to wait until the parts of higher degree are solved, and the contribution of
the shift is known. -/
def orders (const : Bool) (p : RShift.Prior) (k : ℕ) : ℕ := min (monos p k) (RShift.width const p)

/-- With shift: the number of order vectors for each degree that is asked -/
noncomputable def parts (n : ℕ) (const : Bool) (p : RShift.Prior) : List ℕ := (RShift.asked n const p).toList.map (orders const p)

end FireFly.Needed
