import Verif.Py.Str
/-!
# Specification: ASCII texts
-/

namespace Verif.Py

/-- All characters are below U+0080. -/
def Ascii (s : String) : Prop := ∀ c ∈ s.toList, c.val < 128

end Verif.Py
