import Verif.Model.Address
import Verif.Spec.Address
import Verif.Props.Messages
/-!
# C108, C109: transport addresses made from text, and as Python objects
-/

namespace Verif
open Py StreamInput StreamOutput

theorem octet_ok : ∀ n : Nat, n < 256 → parseOctet (toString n).toList = some n ∧ '.' ∉ (toString n).toList ∧ '/' ∉ (toString n).toList := by
  decide +kernel

theorem digit_char {c : Char} (h : 48 ≤ c.toNat ∧ c.toNat ≤ 57) : ∃ k : Nat, k < 10 ∧ c = Char.ofNat (48 + k) := by
  refine ⟨c.toNat - 48, by omega, ?_⟩
  rw [show 48 + (c.toNat - 48) = c.toNat by omega, Char.ofNat_toNat]

theorem octets3 : ∀ a : Nat, a < 10 → ∀ b : Nat, b < 10 → ∀ c : Nat, c < 10 →
    (∀ n, parseOctet [Char.ofNat (48 + a)] = some n → [Char.ofNat (48 + a)] = (toString n).toList) ∧
    (∀ n, parseOctet [Char.ofNat (48 + a), Char.ofNat (48 + b)] = some n → [Char.ofNat (48 + a), Char.ofNat (48 + b)] = (toString n).toList) ∧
    (∀ n, parseOctet [Char.ofNat (48 + a), Char.ofNat (48 + b), Char.ofNat (48 + c)] = some n →
      [Char.ofNat (48 + a), Char.ofNat (48 + b), Char.ofNat (48 + c)] = (toString n).toList) := by
  have key : ∀ a : Nat, a < 10 → ∀ b : Nat, b < 10 → ∀ c : Nat, c < 10 →
    ((parseOctet [Char.ofNat (48 + a)]).all fun n => decide ([Char.ofNat (48 + a)] = (toString n).toList)) = true ∧
    ((parseOctet [Char.ofNat (48 + a), Char.ofNat (48 + b)]).all fun n => decide ([Char.ofNat (48 + a), Char.ofNat (48 + b)] = (toString n).toList)) = true ∧
    ((parseOctet [Char.ofNat (48 + a), Char.ofNat (48 + b), Char.ofNat (48 + c)]).all fun n =>
      decide ([Char.ofNat (48 + a), Char.ofNat (48 + b), Char.ofNat (48 + c)] = (toString n).toList)) = true := by
    decide +kernel
  intro a ha b hb c hc
  obtain ⟨h1, h2, h3⟩ := key a ha b hb c hc
  refine ⟨fun n h => ?_, fun n h => ?_, fun n h => ?_⟩
  · rw [h] at h1; simpa using h1
  · rw [h] at h2; simpa using h2
  · rw [h] at h3; simpa using h3

theorem parseOctet_some {o : List Char} {n : Nat} (h : parseOctet o = some n) : n < 256 ∧ o = (toString n).toList := by
  have h0 := h
  unfold parseOctet at h
  by_cases h1 : o = []
  · rw [if_pos h1] at h; cases h
  rw [if_neg h1] at h
  by_cases h2 : o.all (fun c => decide (48 ≤ c.toNat ∧ c.toNat ≤ 57)) = true
  swap
  · rw [if_pos h2] at h; cases h
  rw [if_neg (not_not.2 h2)] at h
  by_cases h3 : 3 < o.length
  · rw [if_pos h3] at h; cases h
  rw [if_neg h3] at h
  by_cases h4 : o ≠ ['0'] ∧ o.head? = some '0'
  · rw [if_pos h4] at h; cases h
  rw [if_neg h4] at h
  by_cases h5 : 255 < digitsValue o
  · rw [if_pos h5] at h; cases h
  rw [if_neg h5] at h
  refine ⟨by injection h with h; omega, ?_⟩
  have hd : ∀ c ∈ o, 48 ≤ c.toNat ∧ c.toNat ≤ 57 := by
    intro c hc
    have := List.all_eq_true.1 h2 c hc
    simpa using this
  clear h h2 h4 h5
  match o, h1, h3, hd, h0 with
  | [a], _, _, hd, h0 =>
    obtain ⟨i, hi, rfl⟩ := digit_char (hd a (by simp))
    exact (octets3 i hi 0 (by decide) 0 (by decide)).1 n h0
  | [a, b], _, _, hd, h0 =>
    obtain ⟨i, hi, rfl⟩ := digit_char (hd a (by simp))
    obtain ⟨j, hj, rfl⟩ := digit_char (hd b (by simp))
    exact (octets3 i hi j hj 0 (by decide)).2.1 n h0
  | [a, b, c], _, _, hd, h0 =>
    obtain ⟨i, hi, rfl⟩ := digit_char (hd a (by simp))
    obtain ⟨j, hj, rfl⟩ := digit_char (hd b (by simp))
    obtain ⟨k, hk, rfl⟩ := digit_char (hd c (by simp))
    exact (octets3 i hi j hj k hk).2.2 n h0
  | _ :: _ :: _ :: _ :: _, _, h3, _, _ => simp at h3

/-- `split` undone by `join`. -/
theorem splitChars_join (c : Char) (l : List Char) : List.intercalate [c] (splitChars c l) = l := by
  induction l with
  | nil => rfl
  | cons x xs ih =>
    unfold splitChars
    by_cases hx : x = c
    · rw [if_pos hx]
      cases hs : splitChars c xs with
      | nil => exfalso; cases xs with
        | nil => simp [splitChars] at hs
        | cons y ys => unfold splitChars at hs; split at hs <;> [cases hs; (split at hs <;> cases hs)]
      | cons w ws =>
        rw [hs] at ih
        rw [List.intercalate_cons_cons, ih, hx]; rfl
    · rw [if_neg hx]
      cases hs : splitChars c xs with
      | nil => exfalso; cases xs with
        | nil => simp [splitChars] at hs
        | cons y ys => unfold splitChars at hs; split at hs <;> [cases hs; (split at hs <;> cases hs)]
      | cons w ws =>
        rw [hs] at ih
        cases ws with
        | nil => simp at ih ⊢; exact ih
        | cons v vs => rw [List.intercalate_cons_cons] at ih ⊢; rw [← ih]; simp

theorem splitChars_plain (c : Char) (l : List Char) (h : c ∉ l) : splitChars c l = [l] := by
  induction l with
  | nil => rfl
  | cons x xs ih =>
    rw [List.mem_cons, not_or] at h
    unfold splitChars
    rw [if_neg (Ne.symm h.1), ih h.2]

theorem splitChars_append (c : Char) (l r : List Char) (h : c ∉ l) :
    splitChars c (l ++ c :: r) = l :: splitChars c r := by
  induction l with
  | nil => simp [splitChars]
  | cons x xs ih =>
    rw [List.mem_cons, not_or] at h
    rw [List.cons_append]
    conv_lhs => unfold splitChars
    rw [if_neg (Ne.symm h.1), ih h.2]

/-- The four numbers of the dotted text. -/
theorem ipv4OfText_dotted (a b c d : Nat) (ha : a < 256) (hb : b < 256) (hc : c < 256) (hd : d < 256) :
    ipv4OfText (s!"{a}.{b}.{c}.{d}") = .ok (a * 256 ^ 3 + b * 256 ^ 2 + c * 256 + d) := by
  obtain ⟨a1, a2, a3⟩ := octet_ok a ha
  obtain ⟨b1, b2, b3⟩ := octet_ok b hb
  obtain ⟨c1, c2, c3⟩ := octet_ok c hc
  obtain ⟨d1, d2, d3⟩ := octet_ok d hd
  have ht : (s!"{a}.{b}.{c}.{d}").toList = (toString a).toList ++ '.' :: ((toString b).toList ++ '.' ::
      ((toString c).toList ++ '.' :: (toString d).toList)) := by
    have hdot : (toString ".").toList = ['.'] := rfl
    simp [String.toList_append, hdot]
  unfold ipv4OfText
  rw [ht, splitChars_append _ _ _ a2, splitChars_append _ _ _ b2, splitChars_append _ _ _ c2, splitChars_plain _ _ d2]
  simp only [a1, b1, c1, d1]
  rw [if_neg, if_neg]
  · exact congrArg Except.ok (by omega)
  · intro h
    have := congrArg String.toList h
    rw [ht] at this
    simp at this
  · simp only [List.mem_append, List.mem_cons]
    rintro (h | h | h | h | h | h | h)
    · exact a3 h
    · cases h
    · exact b3 h
    · cases h
    · exact c3 h
    · cases h
    · exact d3 h

theorem ipv4OfText_ok {t : String} {n : Nat} (h : ipv4OfText t = .ok n) :
    ∃ a b c d : Nat, a < 256 ∧ b < 256 ∧ c < 256 ∧ d < 256 ∧ t = s!"{a}.{b}.{c}.{d}" := by
  unfold ipv4OfText at h
  split at h
  · cases h
  split at h
  · cases h
  split at h
  · rename_i a b c d hs
    split at h
    · rename_i a' b' c' d' ea eb ec ed
      obtain ⟨la, ra⟩ := parseOctet_some ea
      obtain ⟨lb, rb⟩ := parseOctet_some eb
      obtain ⟨lc, rc⟩ := parseOctet_some ec
      obtain ⟨ld, rd⟩ := parseOctet_some ed
      refine ⟨a', b', c', d', la, lb, lc, ld, ?_⟩
      have hj := splitChars_join '.' t.toList
      rw [hs, ra, rb, rc, rd] at hj
      apply String.toList_injective
      rw [← hj]
      have hdot : (toString ".").toList = ['.'] := rfl
      simp [String.toList_append, List.intercalate, hdot]
    · cases h
  · cases h

theorem ipv4OfText_error {t : String} {e : Err} (h : ipv4OfText t = .error e) : e = .address := by
  unfold ipv4OfText at h
  split at h
  · injection h with h; exact h.symm
  split at h
  · injection h with h; exact h.symm
  split at h
  · split at h
    · cases h
    · injection h with h; exact h.symm
  · injection h with h; exact h.symm

theorem dotted_digits (a b c d : Nat) (ha : a < 256) (hb : b < 256) (hc : c < 256) (hd : d < 256) :
    dotted (a * 256 ^ 3 + b * 256 ^ 2 + c * 256 + d) = s!"{a}.{b}.{c}.{d}" := by
  unfold dotted
  rw [show (a * 256 ^ 3 + b * 256 ^ 2 + c * 256 + d) / 256 ^ 3 % 256 = a by omega,
    show (a * 256 ^ 3 + b * 256 ^ 2 + c * 256 + d) / 256 ^ 2 % 256 = b by omega,
    show (a * 256 ^ 3 + b * 256 ^ 2 + c * 256 + d) / 256 % 256 = c by omega,
    show (a * 256 ^ 3 + b * 256 ^ 2 + c * 256 + d) % 256 = d by omega]

theorem dotted_interp (a b c d : Nat) :
    toString a ++ "." ++ toString b ++ "." ++ toString c ++ "." ++ toString d = s!"{a}.{b}.{c}.{d}" := rfl

theorem four_bytes (n : Nat) (hn : n < 2 ^ 32) :
    ∃ a b c d : Nat, a < 256 ∧ b < 256 ∧ c < 256 ∧ d < 256 ∧ n = a * 256 ^ 3 + b * 256 ^ 2 + c * 256 + d :=
  ⟨n / 256 / 256 / 256, n / 256 / 256 % 256, n / 256 % 256, n % 256, by omega, by omega, by omega, by omega, by omega⟩

/-! ## C108 -/

/-- C108: the usual notation of an address gives that address, and the host name is the text itself unless one is
given (an empty one counts as none). -/
theorem C108_text (text : String) (a b c d : Nat) (h : Dotted text a b c d) (port : Int) :
    TransportAddress.ofText text port none = .ok ⟨a * 256 ^ 3 + b * 256 ^ 2 + c * 256 + d, text, port⟩ ∧
    TransportAddress.ofText text port (some "") = .ok ⟨a * 256 ^ 3 + b * 256 ^ 2 + c * 256 + d, text, port⟩ ∧
    ∀ host : String, host ≠ "" →
      TransportAddress.ofText text port (some host) = .ok ⟨a * 256 ^ 3 + b * 256 ^ 2 + c * 256 + d, host, port⟩ := by
  obtain ⟨ha, hb, hc, hd, rfl⟩ := h
  unfold TransportAddress.ofText
  rw [dotted_interp, ipv4OfText_dotted a b c d ha hb hc hd]
  have hd' := dotted_digits a b c d ha hb hc hd
  generalize a * 256 ^ 3 + b * 256 ^ 2 + c * 256 + d = n at hd'
  refine ⟨?_, ?_, fun host hh => ?_⟩
  · simp only [TransportAddress.new, hd']
  · simp [TransportAddress.new, hd']
  · simp only [TransportAddress.new, if_pos hh]

example : Dotted "192.168.0.1" 192 168 0 1 := by decide +kernel

/-- C108: no other text is accepted: it raises AddressValueError. -/
theorem C108_rejects (text : String) (port : Int) (host : Option String) :
    (∀ a b c d : Nat, ¬ Dotted text a b c d) ↔ TransportAddress.ofText text port host = .error .address := by
  unfold TransportAddress.ofText
  constructor
  · intro h
    cases ht : ipv4OfText text with
    | ok n =>
      obtain ⟨a, b, c, d, ha, hb, hc, hd, e⟩ := ipv4OfText_ok ht
      exact absurd ⟨ha, hb, hc, hd, e⟩ (h a b c d)
    | error e => rw [ipv4OfText_error ht]
  · rintro h a b c d ⟨ha, hb, hc, hd, rfl⟩
    rw [dotted_interp, ipv4OfText_dotted a b c d ha hb hc hd] at h
    cases h

example : TransportAddress.ofText "127.0.0.01" 9200 none = .error .address := by decide +kernel
example : TransportAddress.ofText "127.0.0.256" 9200 none = .error .address := by decide +kernel
example : TransportAddress.ofText "127.0.1" 9200 none = .error .address := by decide +kernel
example : TransportAddress.ofText "localhost" 9200 none = .error .address := by decide +kernel
example : TransportAddress.ofText " 127.0.0.1" 9200 none = .error .address := by decide +kernel
example : TransportAddress.ofText "127.0.0.1/8" 9200 none = .error .address := by decide +kernel
example : TransportAddress.ofText "" 9200 none = .error .address := by decide +kernel

/-- C108: each of the 2^32 addresses has exactly one such text, and that is how it is shown. -/
theorem C108_all (n : Nat) (hn : n < 2 ^ 32) (port : Int) (host : Option String) (text : String) :
    (∃ t, TransportAddress.ofText text port host = .ok t ∧ t.address = n) ↔ text = dotted n := by
  obtain ⟨a, b, c, d, ha, hb, hc, hd, hne⟩ := four_bytes n hn
  have hdot : dotted n = s!"{a}.{b}.{c}.{d}" := by rw [hne, dotted_digits a b c d ha hb hc hd]
  have hpar : ipv4OfText (s!"{a}.{b}.{c}.{d}") = .ok n := by rw [hne]; exact ipv4OfText_dotted a b c d ha hb hc hd
  constructor
  · rintro ⟨t, ht, he⟩
    unfold TransportAddress.ofText at ht
    cases hi : ipv4OfText text with
    | error e => rw [hi] at ht; cases ht
    | ok m =>
      rw [hi] at ht
      injection ht with ht
      have hm : m = n := by rw [← he, ← ht]; rfl
      obtain ⟨a', b', c', d', ha', hb', hc', hd', e⟩ := ipv4OfText_ok hi
      rw [e, ipv4OfText_dotted a' b' c' d' ha' hb' hc' hd'] at hi
      injection hi with hi
      rw [← hm, ← hi, dotted_digits a' b' c' d' ha' hb' hc' hd']
      exact e
  · rintro rfl
    refine ⟨TransportAddress.new n port host, ?_, rfl⟩
    unfold TransportAddress.ofText
    rw [hdot, hpar]

example : ∃ t, TransportAddress.ofText "255.255.255.255" 1 none = .ok t ∧ t.address = 2 ^ 32 - 1 :=
  (C108_all (2 ^ 32 - 1) (by decide) 1 none "255.255.255.255").2 (by decide +kernel)

/-- C108: a node made with such an address, and without host name and address of its own, has the text as its host name
and its host address. -/
theorem C108_node (text : String) (a b c d : Nat) (h : Dotted text a b c d) (port : Int) (t : TransportAddress)
    (ht : TransportAddress.ofText text port none = .ok t)
    (node_name node_id : String) (ephemeral_id : Option String) (attributes : Dict String String) (roles : List Role)
    (version : Option Version) (fresh : String) :
    (DiscoveryNode.new node_name node_id ephemeral_id none none t attributes roles version fresh).host_name = text ∧
    (DiscoveryNode.new node_name node_id ephemeral_id none none t attributes roles version fresh).host_address = text := by
  obtain ⟨h1, -⟩ := C108_text text a b c d h port
  rw [ht] at h1
  injection h1 with h1
  rw [h1]
  obtain ⟨ha, hb, hc, hd, rfl⟩ := h
  exact ⟨rfl, dotted_digits a b c d ha hb hc hd⟩

example := C108_node "10.1.2.3" 10 1 2 3 (by unfold Dotted; decide) 9300 _ rfl "n" "i" none [] [] none "f"

example : ∃ t, TransportAddress.ofText "10.1.2.3" 9300 none = .ok t ∧
    (DiscoveryNode.new "n" "n" none none none t [] [] none "e").host_address = "10.1.2.3" :=
  ⟨⟨10 * 256 ^ 3 + 256 ^ 2 + 2 * 256 + 3, "10.1.2.3", 9300⟩, by decide +kernel, by decide +kernel⟩

/-- C26 in terms of the texts: exactly the addresses whose first number is below 128 can be sent (with a host name that
can be sent and a 32-bit port); of all others only the length byte is written. -/
theorem C26_text (text : String) (a b c d : Nat) (h : Dotted text a b c d) (port : Int) (hp : -2 ^ 31 ≤ port ∧ port < 2 ^ 31)
    (t : TransportAddress) (ht : TransportAddress.ofText text port none = .ok t) :
    (a < 128 → RoundTrips t.writeTo TransportAddress.readFrom t) ∧
    (128 ≤ a → t.writeTo = ⟨[4], some .overflow⟩) := by
  obtain ⟨h1, -⟩ := C108_text text a b c d h port
  rw [ht] at h1
  injection h1 with h1
  subst h1
  obtain ⟨ha, hb, hc, hd, rfl⟩ := h
  refine ⟨fun hlt => C26_partial _ ⟨?_, ?_, hp⟩, fun hge => C26_violated_write _ ?_⟩
  · show a * 256 ^ 3 + b * 256 ^ 2 + c * 256 + d < 2 ^ 31
    omega
  · show (utf8 (toString a ++ "." ++ toString b ++ "." ++ toString c ++ "." ++ toString d)).length ≤ 2 ^ 31
    have key : ∀ n : Nat, n < 256 → (utf8 (toString n)).length ≤ 3 := by decide +kernel
    have k1 := key a ha
    have k2 := key b hb
    have k3 := key c hc
    have k4 := key d hd
    have kd : (utf8 ".").length = 1 := by decide +kernel
    simp only [utf8_append, List.length_append, kd]
    omega
  · show 2 ^ 31 ≤ a * 256 ^ 3 + b * 256 ^ 2 + c * 256 + d
    omega

example : ∃ t, TransportAddress.ofText "127.0.0.1" 9300 none = .ok t ∧ RoundTrips t.writeTo TransportAddress.readFrom t :=
  ⟨_, (C108_text "127.0.0.1" 127 0 0 1 (by decide +kernel) 9300).1,
    (C26_text "127.0.0.1" 127 0 0 1 (by decide +kernel) 9300 (by decide) _
      (C108_text "127.0.0.1" 127 0 0 1 (by decide +kernel) 9300).1).1 (by decide)⟩

example : ∃ t, TransportAddress.ofText "192.168.0.1" 9300 none = .ok t ∧ t.writeTo = ⟨[4], some .overflow⟩ :=
  ⟨_, (C108_text "192.168.0.1" 192 168 0 1 (by decide +kernel) 9300).1,
    (C26_text "192.168.0.1" 192 168 0 1 (by decide +kernel) 9300 (by decide) _
      (C108_text "192.168.0.1" 192 168 0 1 (by decide +kernel) 9300).1).2 (by decide)⟩

/-! ## C109 -/

/-- C109 is violated by every transport address, constructed or read: `str`, `int`, `hash` and `<` raise AttributeError,
and two different address objects are never equal, whatever their addresses. -/
theorem C109_violated (i j i' j' : Nat) (text text' : String) (port port' : Int) (host host' : Option String)
    (o o' : AddressObject) (h : AddressObject.new i j text port host = .ok o)
    (h' : AddressObject.new i' j' text' port' host' = .ok o') (hash : Nat → Int) :
    o.self.str = .error .attribute ∧ o.self.int = .error .attribute ∧ o.self.hash hash = .error .attribute ∧
    o.self.lt o'.self = .error .attribute ∧ o.self.eq o'.self = decide (i = i') ∧
    (∀ k, o.self.eq ⟨k, some o.value.address⟩ = decide (i = k)) ∧
    ∀ (k : Nat) (input rest : Bytes) (r : AddressObject), o.readFrom k input = .ok (r, rest) →
      r.self.str = .error .attribute ∧ r.self.int = .error .attribute ∧ r.self.hash hash = .error .attribute ∧
      r.self.lt o'.self = .error .attribute ∧ r.self.eq o'.self = decide (i = i') := by
  unfold AddressObject.new at h h'
  cases ht : ipv4OfText text with
  | error e => rw [ht] at h; cases h
  | ok n =>
    cases ht' : ipv4OfText text' with
    | error e => rw [ht'] at h'; cases h'
    | ok n' =>
      rw [ht] at h
      rw [ht'] at h'
      injection h with h
      injection h' with h'
      subst h h'
      refine ⟨rfl, rfl, rfl, rfl, rfl, fun k => rfl, fun k input rest r hr => ?_⟩
      unfold AddressObject.readFrom at hr
      cases hq : TransportAddress.readFrom input with
      | error e => rw [hq] at hr; cases hr
      | ok p =>
        rw [hq] at hr
        injection hr with hr
        injection hr with h1 h2
        subst h1
        exact ⟨rfl, rfl, rfl, rfl, rfl⟩

example : ∃ o o', AddressObject.new 1 2 "127.0.0.1" 9300 none = .ok o ∧ AddressObject.new 3 4 "127.0.0.1" 9300 none = .ok o' ∧
    o.self.eq o'.self = false := ⟨_, _, rfl, rfl, by decide⟩

/-- C109, the part that holds: the attribute `address` of an address object is an IPv4 address as any other: it is shown as
the text the object was made from, two of them are ordered as their numbers, and equal exactly if the texts are. -/
theorem C109_address_partial (i j i' j' : Nat) (text text' : String) (port port' : Int) (host host' : Option String)
    (o o' : AddressObject) (h : AddressObject.new i j text port host = .ok o)
    (h' : AddressObject.new i' j' text' port' host' = .ok o') (hash : Nat → Int) :
    o.address.str = .ok text ∧ o.address.int = .ok o.value.address ∧ o.address.hash hash = .ok (hash o.value.address) ∧
    o.address.lt o'.address = .ok (decide (o.value.address < o'.value.address)) ∧
    (o.address.eq o'.address = true ↔ text = text') := by
  unfold AddressObject.new at h h'
  cases ht : ipv4OfText text with
  | error e => rw [ht] at h; cases h
  | ok n =>
    cases ht' : ipv4OfText text' with
    | error e => rw [ht'] at h'; cases h'
    | ok n' =>
      rw [ht] at h
      rw [ht'] at h'
      injection h with h
      injection h' with h'
      subst h h'
      have key : ∀ {t : String} {m : Nat}, ipv4OfText t = .ok m → dotted m = t := by
        intro t m hm
        obtain ⟨a, b, c, d, ha, hb, hc, hd, e⟩ := ipv4OfText_ok hm
        rw [e, ipv4OfText_dotted a b c d ha hb hc hd] at hm
        injection hm with hm
        rw [← hm, dotted_digits a b c d ha hb hc hd, e]
      refine ⟨?_, rfl, rfl, rfl, ?_⟩
      · show Except.ok (dotted n) = .ok text
        rw [key ht]
      · show decide (n = n') = true ↔ text = text'
        rw [decide_eq_true_eq]
        constructor
        · rintro rfl
          rw [← key ht, ← key ht']
        · rintro rfl
          rw [ht] at ht'
          injection ht'

example : ∃ o, AddressObject.new 1 2 "10.0.0.7" 9300 none = .ok o ∧ o.address.str = .ok "10.0.0.7" := ⟨_, rfl, by decide +kernel⟩

/-- The address the extension reports in the transport handshake (actions/internal/transport_handshake_request_handler.py:41)
is the one made from the text in the code. -/
example : TransportAddress.ofText "127.0.0.1" 1234 none = .ok (TransportAddress.new (127 * 256 ^ 3 + 1) 1234 none) := by
  decide +kernel

end Verif
