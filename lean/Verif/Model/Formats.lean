import Verif.Proofs.NumeralFixed

/-!
# The formats of an output stream
-/

namespace MshIO

/-- The format of a stream with default flags and precision `P`: `printf("%.*g", P, d)`. -/
def Fmt.general (P : Nat) : Fmt where
  print := fmtGeneral P
  numeral := fun d _ => let ⟨n, h, _, _, e, _⟩ := fmtGeneral_numeral P d; ⟨n, h, e.symm⟩

/-- The format of a stream with `std::fixed` and precision `P`: `printf("%.*f", P, d)`. -/
def Fmt.fixed (P : Nat) : Fmt where
  print := fmtFixed P
  numeral := fun d _ => let ⟨n, h, e, _⟩ := fmtFixed_numeral P d; ⟨n, h, e.symm⟩

/-- The format of a stream with `std::scientific` and precision `P`: `printf("%.*e", P, d)`. -/
def Fmt.scientific (P : Nat) : Fmt where
  print := fmtScientific P
  numeral := fun d _ => let ⟨n, h, e, _⟩ := fmtScientific_numeral P d; ⟨n, h, e.symm⟩

end MshIO
