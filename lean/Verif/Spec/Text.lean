/- Decimal digits, for the properties about texts. -/
namespace CalCore.Spec

/-- The last `k` decimal digits of `n`. -/
def digits (k n : Nat) : List Char := (List.range k).reverse.map (fun i => Nat.digitChar (n / 10 ^ i % 10))

end CalCore.Spec
