import Verif.Model.Points
/-!
# Specification: text without surrogates
-/

namespace Verif

/-- A surrogate: half of a UTF-16 pair, no character of its own. -/
def Surrogate (c : Point) : Prop := 0xD800 ≤ c.val ∧ c.val ≤ 0xDFFF

instance (c : Point) : Decidable (Surrogate c) := inferInstanceAs (Decidable (_ ∧ _))

/-- The text consists of characters only. -/
def Clean (s : Points) : Prop := ∀ c ∈ s, ¬ Surrogate c

instance (s : Points) : Decidable (Clean s) := inferInstanceAs (Decidable (∀ c ∈ s, ¬ Surrogate c))

/-- The string has these code points. -/
def SpelledBy (t : String) (s : Points) : Prop := t.toList.map Char.toNat = s.map Fin.val

instance (t : String) (s : Points) : Decidable (SpelledBy t s) := inferInstanceAs (Decidable (_ = _))

/-- All texts of a handler's response consist of characters only. -/
structure AnyResponse.AllClean (r : AnyResponse) : Prop where
  content_type : Clean r.content_type
  header_names : ∀ kv ∈ r.headers, Clean kv.1
  header_values : ∀ kv ∈ r.headers, ∀ v ∈ kv.2, Clean v
  consumed_params : ∀ p ∈ r.consumed_params, Clean p

end Verif
