import Verif.Inp.TableCards
import Verif.Inp.PrintLemmas
/-!
# All classes of the table
-/
namespace Inp
open Py Types

/-- All 679 classes of src/pymcnp/inp. -/
def Tab.classes : List Cls := Tab.classesOptions ++ Tab.classesDawwg ++ Tab.classesMplot ++ Tab.classesSdef ++
  Tab.classesCell ++ Tab.classesSurface ++ Tab.classesCards

/-- Classes made of a head and fields of scalar entries. -/
def Cls.isStd (c : Cls) : Bool := match c.shape with | .flat h fs => c.std h fs | .other _ => false

set_option maxRecDepth 20000 in
theorem Tab.count : Tab.classes.length = 679 ∧ (Tab.classes.filter Cls.isStd).length = 546 := by decide +kernel

end Inp
