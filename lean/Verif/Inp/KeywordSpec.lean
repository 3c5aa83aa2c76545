import Verif.Inp.TableAll
import Verif.Inp.RoundSpec
/-!
# Cards with a keyword before their list (specification)
-/
namespace Inp
open Py Types

/-- A card whose list may follow a keyword. -/
structure KwCard where
  c : Cls
  /-- the first word -/
  h : Head
  /-- the keyword in the pattern of the card -/
  p : Pat
  kws : List Str
  /-- what the list is made of -/
  k : Kind

/-- Dose functions and source distributions (src/pymcnp/inp/De.py:21, Df_0.py:21, Ds_0.py:21, Sb_0.py:21, Sp_0.py:21,
Si_0.py:21, Si_1.py:21, Si_2.py:21). -/
def kwCards : List KwCard := [
  ⟨Tab.De, ⟨.no, c!"de", .req, .no⟩, .ngrp (.alt (.lits c!"log") (.lits c!"lin")), [c!"log", c!"lin"], .real⟩,
  ⟨Tab.Df_0, ⟨.no, c!"df", .req, .no⟩, .ngrp (.alt (.lits c!"log") (.lits c!"lin")), [c!"log", c!"lin"], .real⟩,
  ⟨Tab.Ds_0, ⟨.no, c!"ds", .req, .no⟩, .cls (.set false [.ch 'h', .ch 'l', .ch 's']), [c!"h", c!"l", c!"s"], .real⟩,
  ⟨Tab.Sb_0, ⟨.no, c!"sb", .req, .no⟩, .cls (.set false [.ch 'd', .ch 'c', .ch 'v', .ch 'w']), [c!"d", c!"c", c!"v", c!"w"], .real⟩,
  ⟨Tab.Sp_0, ⟨.no, c!"sp", .req, .no⟩, .cls (.set false [.ch 'd', .ch 'c', .ch 'v', .ch 'w']), [c!"d", c!"c", c!"v", c!"w"], .real⟩,
  ⟨Tab.Si_0, ⟨.no, c!"si", .req, .no⟩, .cls (.set false [.ch 'h', .ch 'l', .ch 'a', .ch 's']), [c!"h", c!"l", c!"a", c!"s"], .dist⟩,
  ⟨Tab.Si_1, ⟨.no, c!"si", .req, .no⟩, .cls (.set false [.ch 'h', .ch 'l', .ch 'a', .ch 's']), [c!"h", c!"l", c!"a", c!"s"], .real⟩,
  ⟨Tab.Si_2, ⟨.no, c!"si", .req, .no⟩, .cls (.set false [.ch 'h', .ch 'l', .ch 'a', .ch 's']), [c!"h", c!"l", c!"a", c!"s"], .desig⟩]

end Inp
