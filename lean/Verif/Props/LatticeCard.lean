import Verif.Inp.TableCards
/-! # Lattice expressions on tally cards (C54) -/
set_option maxRecDepth 20000
namespace Props
open Py Types Inp

/-- **C54 fails on cards:** the two bins `1` and `2<3` of a tally card are printed as the one bin
`1<2<3`. -/
theorem C54_card_violated :
    (cardParse Tab.F_4 c!"f4:n 1 2<3").map (fun r => r.1.str) = .ok c!"f4:n 1<2<3" ∧
    (cardParse Tab.F_4 c!"f4:n 1 2<3").map (fun r => r.1.str) =
      (cardParse Tab.F_4 c!"f4:n 1<2<3").map (fun r => r.1.str) := by
  constructor <;> decide +kernel

/-- **C53 fails on cards:** a group of cells on a tally card ends in an `AssertionError`. -/
theorem C53_card_violated : cardParse Tab.F_4 c!"f4:n (1 2)<3" = .error .assertion := by decide +kernel

end Props
