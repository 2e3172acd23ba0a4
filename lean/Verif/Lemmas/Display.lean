import Verif.Spec.Display
import Verif.Model.Display
import Verif.Lemmas.Text
/-!
# Lemmas: which of the printed texts take one line
-/

namespace Verif
open Py

theorem oneLine_append {a b : String} : OneLine (a ++ b) ↔ OneLine a ∧ OneLine b := by
  unfold OneLine
  rw [String.toList_append]
  simp only [List.mem_append, not_or]
  tauto

/-- Characters that are not line breaks. -/
def Plain (c : Char) : Prop := c ≠ '\n' ∧ c ≠ '\r'

instance (c : Char) : Decidable (Plain c) := inferInstanceAs (Decidable (_ ∧ _))

theorem oneLine_ofList {l : List Char} (h : ∀ c ∈ l, Plain c) : OneLine (String.ofList l) := by
  unfold OneLine
  rw [String.toList_ofList]
  exact ⟨fun m => (h _ m).1 rfl, fun m => (h _ m).2 rfl⟩

theorem oneLine_iff {s : String} : OneLine s ↔ ∀ c ∈ s.toList, Plain c :=
  ⟨fun h _ m => ⟨fun e => h.1 (e ▸ m), fun e => h.2 (e ▸ m)⟩,
    fun h => ⟨fun m => (h _ m).1 rfl, fun m => (h _ m).2 rfl⟩⟩

theorem plain_hexDigit (n : Nat) : Plain (hexDigit n) := by
  have h : ∀ m, m < 16 → Plain ((Nat.toDigits 16 m).headD '0') := by
    intro m hm
    have := List.all_eq_true.1 (show (List.range 16).all
      (fun m => decide (Plain ((Nat.toDigits 16 m).headD '0'))) = true by
        decide +kernel) m (List.mem_range.2 hm)
    exact of_decide_eq_true this
  exact h _ (Nat.mod_lt _ (by decide))

theorem plain_hexDigits : ∀ (w n : Nat), ∀ c ∈ hexDigits n w, Plain c
  | 0, _, c, h => by cases h
  | w + 1, n, c, h => by
    rw [hexDigits] at h
    rcases List.mem_append.1 h with h | h
    · exact plain_hexDigits w _ c h
    · rw [List.mem_singleton.1 h]
      exact plain_hexDigit n

theorem plain_reprChar (pr : Char → Bool) {q : Char} (hq : Plain q) (c : Char) :
    ∀ d ∈ reprChar pr q c, Plain d := by
  have hb : Plain '\\' := by unfold Plain; decide
  intro d
  unfold reprChar
  by_cases h1 : c = q ∨ c = '\\'
  · rw [if_pos h1]
    intro hd
    rcases List.mem_cons.1 hd with rfl | hd
    · exact hb
    · rw [List.mem_singleton.1 hd]
      rcases h1 with rfl | rfl
      · exact hq
      · exact hb
  rw [if_neg h1]
  by_cases h2 : c = '\t'
  · rw [if_pos h2]
    simp only [List.mem_cons, List.not_mem_nil, or_false]
    rintro (rfl | rfl) <;> unfold Plain <;> decide
  rw [if_neg h2]
  by_cases h3 : c = '\n'
  · rw [if_pos h3]
    simp only [List.mem_cons, List.not_mem_nil, or_false]
    rintro (rfl | rfl) <;> unfold Plain <;> decide
  rw [if_neg h3]
  by_cases h4 : c = '\r'
  · rw [if_pos h4]
    simp only [List.mem_cons, List.not_mem_nil, or_false]
    rintro (rfl | rfl) <;> unfold Plain <;> decide
  rw [if_neg h4]
  have hx : ∀ (e : Char) (w : Nat), Plain e → d ∈ '\\' :: e :: hexDigits c.toNat w → Plain d := by
    intro e w he hd
    rcases List.mem_cons.1 hd with rfl | hd
    · exact hb
    rcases List.mem_cons.1 hd with rfl | hd
    · exact he
    · exact plain_hexDigits _ _ d hd
  have hc : d ∈ [c] → Plain d := by
    intro hd
    rw [List.mem_singleton.1 hd]
    exact ⟨h3, h4⟩
  split_ifs
  · exact hx 'x' 2 (by unfold Plain; decide)
  · exact hc
  · exact hc
  · exact hx 'x' 2 (by unfold Plain; decide)
  · exact hx 'u' 4 (by unfold Plain; decide)
  · exact hx 'U' 8 (by unfold Plain; decide)

theorem oneLine_strRepr (pr : Char → Bool) (s : String) : OneLine (strRepr pr s) := by
  have hq : Plain (reprQuote s.toList) := by
    unfold reprQuote
    split_ifs <;> unfold Plain <;> decide
  unfold strRepr
  apply oneLine_ofList
  intro c hc
  rcases List.mem_cons.1 hc with rfl | hc
  · exact hq
  rcases List.mem_append.1 hc with hc | hc
  · obtain ⟨d, _, hd⟩ := List.mem_flatMap.1 hc
    exact plain_reprChar pr hq d c hd
  · rw [List.mem_singleton.1 hc]
    exact hq

theorem oneLine_bytesRepr (b : Bytes) : OneLine (bytesRepr b) :=
  oneLine_append.2 ⟨by decide, oneLine_strRepr _ _⟩

theorem oneLine_joinComma : ∀ {l : List String}, (∀ s ∈ l, OneLine s) → OneLine (joinComma l)
  | [], _ => by decide
  | [a], h => h a (List.mem_singleton.2 rfl)
  | a :: b :: r, h => by
    rw [joinComma]
    exact oneLine_append.2 ⟨oneLine_append.2 ⟨h a List.mem_cons_self, by decide⟩,
      oneLine_joinComma fun s hs => h s (List.mem_cons_of_mem _ hs)⟩

theorem oneLine_listRepr {l : List String} (h : ∀ s ∈ l, OneLine s) : OneLine (listRepr l) :=
  oneLine_append.2 ⟨oneLine_append.2 ⟨by decide, oneLine_joinComma h⟩, by decide⟩

theorem oneLine_dictRepr {l : List (String × String)} (h : ∀ s ∈ l, OneLine s.1 ∧ OneLine s.2) :
    OneLine (dictRepr l) := by
  refine oneLine_append.2 ⟨oneLine_append.2 ⟨by decide, oneLine_joinComma ?_⟩, by decide⟩
  intro s hs
  obtain ⟨kv, hk, rfl⟩ := List.mem_map.1 hs
  exact oneLine_append.2 ⟨oneLine_append.2 ⟨(h kv hk).1, by decide⟩, (h kv hk).2⟩

theorem oneLine_setRepr {l : List String} (h : ∀ s ∈ l, OneLine s) : OneLine (setRepr l) := by
  unfold setRepr
  split_ifs
  · decide
  · exact oneLine_append.2 ⟨oneLine_append.2 ⟨by decide, oneLine_joinComma h⟩, by decide⟩

theorem plain_digit {c : Char} (h : c.isDigit = true) : Plain c := by
  constructor <;> (rintro rfl; exact absurd h (by decide))

theorem oneLine_nat (n : Nat) : OneLine (toString n) := by
  rw [oneLine_iff, toString_nat_toList]
  exact fun c hc => plain_digit (toDigits_isDigit n c hc)

theorem oneLine_int : ∀ i : Int, OneLine (toString i)
  | (n : Nat) => oneLine_nat n
  | Int.negSucc n => by
    rw [toString_int_neg]
    exact oneLine_append.2 ⟨by decide, oneLine_nat _⟩

theorem oneLine_bool (b : Bool) : OneLine (boolRepr b) := by cases b <;> decide

variable (p : Shown)

theorem oneLine_str (s : String) : OneLine (p.str s) := oneLine_strRepr _ s

theorem oneLine_map_str (l : List String) : ∀ s ∈ l.map p.str, OneLine s := by
  intro s hs
  obtain ⟨t, _, rfl⟩ := List.mem_map.1 hs
  exact oneLine_str p t

theorem oneLine_strs (l : List String) : OneLine (p.strs l) := oneLine_listRepr (oneLine_map_str p l)

theorem oneLine_dict (d : Dict String String) : OneLine (p.dict d) := by
  refine oneLine_dictRepr ?_
  intro s hs
  obtain ⟨kv, _, rfl⟩ := List.mem_map.1 hs
  exact ⟨oneLine_str p _, oneLine_str p _⟩

theorem oneLine_listDict (d : Dict String (List String)) : OneLine (p.listDict d) := by
  refine oneLine_dictRepr ?_
  intro s hs
  obtain ⟨kv, _, rfl⟩ := List.mem_map.1 hs
  exact ⟨oneLine_str p _, oneLine_strs p _⟩

theorem oneLine_setDict (d : Dict String (List String)) : OneLine (p.setDict d) := by
  refine oneLine_dictRepr ?_
  intro s hs
  obtain ⟨kv, _, rfl⟩ := List.mem_map.1 hs
  exact ⟨oneLine_str p _, oneLine_setRepr (oneLine_map_str p _)⟩

theorem oneLine_role (r : Role) : OneLine (p.role r) := by
  refine oneLine_append.2 ⟨oneLine_append.2 ⟨by decide, oneLine_joinComma ?_⟩, by decide⟩
  intro s hs
  simp only [List.mem_cons, List.not_mem_nil, or_false] at hs
  rcases hs with rfl | rfl | rfl
  · exact oneLine_str p _
  · exact oneLine_str p _
  · exact oneLine_bool _

theorem oneLine_roles (o : Bool) (l : List Role) : OneLine (p.roles o l) := by
  have h : ∀ s ∈ l.map p.role, OneLine s := by
    intro s hs
    obtain ⟨t, _, rfl⟩ := List.mem_map.1 hs
    exact oneLine_role p t
  unfold Shown.roles
  split_ifs
  · exact oneLine_append.2 ⟨oneLine_append.2 ⟨by decide, oneLine_listRepr h⟩, by decide⟩
  · exact oneLine_setRepr h

theorem version_str (v : Version) : p.version v = toString (v.major p.fd) ++ "." ++
    toString (v.minor p.fd) ++ "." ++ toString (v.revision p.fd) ++ "." ++ toString v.build := by
  simp only [Shown.version, Version.str]
  rfl

theorem oneLine_version (v : Version) : OneLine (p.version v) := by
  rw [version_str]
  simp only [oneLine_append, oneLine_int, true_and, and_true]
  decide

theorem oneLine_object (k : String) (i : Nat) (h : OneLine k) : OneLine (p.object k i) := by
  have hd : OneLine (String.ofList ((p.address i).map fun d => hexDigit d)) := by
    apply oneLine_ofList
    intro c hc
    obtain ⟨d, _, rfl⟩ := List.mem_map.1 hc
    exact plain_hexDigit d
  simp only [Shown.object, oneLine_append]
  exact ⟨⟨⟨⟨by decide, h⟩, by decide⟩, hd⟩, by decide⟩
end Verif
