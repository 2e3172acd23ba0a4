import Verif.Spec.Domains
import Verif.Spec.Wire
import Verif.Lemmas.Values
import Verif.Lemmas.VarintSpec
import Verif.Lemmas.Utf8
import Verif.Spec.Collections
import Verif.Props.Primitives
/-!
# Properties C09 - C16: collections, enums, values, sizes, truncation
-/

namespace Verif
open Py StreamInput StreamOutput Spec

/-! ## C09 -/

/-- C09, arrays. -/
theorem C09_array (l : List String) (h : StrsOK l) :
    RoundTrips (writeStringArray l) readStringArray l := rt_stringArray h

example := C09_array ["é", "", "b"] (by decide +kernel)

/-- C09, string-to-string dicts: same keys, same order, same values. -/
theorem C09_dict (d : Dict String String) (h : StrDictOK d) :
    RoundTrips (writeStringDict d) readStringDict d := rt_stringDict h

example := C09_dict [("é", "1"), ("", "2")] (by decide +kernel)

/-- C09, string-to-string-array dicts. -/
theorem C09_array_dict (d : Dict String (List String)) (h : StrsDictOK d) :
    RoundTrips (writeStringArrayDict d) readStringArrayDict d := rt_stringArrayDict h

example := C09_array_dict [("a", ["x", "é"]), ("b", [])] (by decide +kernel)

/-- C09, string-to-string-set dicts: whatever order each set is iterated in, the keys come back in
order, each with the same set (a permutation of the elements). -/
theorem C09_set_dict (ho : HashOrder) (d : Dict String (List String)) (h : StrSetDictOK d) :
    ∃ d', RoundTrips (writeStringSetDict (d.map fun kv => (kv.1, ho.order kv.2))) readStringSetDict d' ∧
      List.Forall₂ (fun a b => a.1 = b.1 ∧ a.2.Perm b.2) d' d := by
  refine ⟨d.map fun kv => (kv.1, ho.order kv.2), rt_stringSetDict ?_, ?_⟩
  · obtain ⟨⟨h1, h2, h3⟩, h4⟩ := h
    refine ⟨⟨?_, by simpa using h2, ?_⟩, ?_⟩
    · unfold Dict.WF at h1 ⊢; simpa [Function.comp_def] using h1
    · intro kv hkv
      obtain ⟨kv', hm, rfl⟩ := List.mem_map.1 hkv
      have := h3 kv' hm
      refine ⟨this.1, ?_, fun s hs => this.2.2 s ((ho.perm _).mem_iff.1 hs)⟩
      rw [(ho.perm _).length_eq]; exact this.2.1
    · intro kv hkv
      obtain ⟨kv', hm, rfl⟩ := List.mem_map.1 hkv
      exact (ho.perm _).nodup_iff.2 (h4 kv' hm)
  · clear h
    induction d with
    | nil => exact List.Forall₂.nil
    | cons kv d ih => exact List.Forall₂.cons ⟨rfl, ho.perm _⟩ ih

example := C09_set_dict ⟨fun l => l, fun l => List.Perm.refl l⟩ [("k", ["b", "a"])] (by decide)

example : StrSetDictOK [("a", ["x", "y"]), ("b", [])] := by decide +kernel
example : StrDictOK [("é", "1"), ("", "2")] := by decide +kernel

/-! ## C10 -/

theorem filter_ne_of_not_mem {k : String} {l : List String} (h : k ∉ l) : l.filter (· ≠ k) = l := by
  rw [List.filter_eq_self]; intro a ha; simp; rintro rfl; exact h ha

theorem keys_foldl_set {ν : Type} (items : List (String × ν)) (d : Dict String ν) (hd : d.WF) :
    (items.foldl (fun d kv => Dict.set d kv.1 kv.2) d).map (·.1) =
      d.map (·.1) ++ (firstOccurrences (items.map (·.1))).filter (· ∉ d.map (·.1)) := by
  induction items generalizing d with
  | nil => simp [firstOccurrences]
  | cons kv items ih =>
    rw [List.foldl_cons, ih _ (hd.set _ _)]
    simp only [List.map_cons, firstOccurrences]
    by_cases h : kv.1 ∈ d.map (·.1)
    · rw [Dict.keys_set_of_mem h, List.filter_cons_of_neg (by simpa using h), List.filter_filter]
      congr 1
      apply List.filter_congr
      intro x _
      by_cases hx : x ∈ d.map (·.1)
      · simp [hx]
      · have : x ≠ kv.1 := by rintro rfl; exact hx h
        simp [hx, this]
    · rw [Dict.set_of_not_mem h, List.filter_cons_of_pos (by simpa using h), List.filter_filter]
      simp only [List.map_append, List.map_cons, List.map_nil, List.append_assoc, List.singleton_append]
      congr 2
      apply List.filter_congr
      intro x _
      by_cases h1 : x ∈ d.map (·.1) <;> by_cases h2 : x = kv.1 <;> simp [List.mem_append, h1, h2]

theorem get_foldl_set {ν : Type} (items : List (String × ν)) (d : Dict String ν) (k : String) :
    (items.foldl (fun d kv => Dict.set d kv.1 kv.2) d).get? k =
      (lastValue items k).or (d.get? k) := by
  induction items generalizing d with
  | nil => simp [lastValue]
  | cons kv items ih =>
    rw [List.foldl_cons, ih, Dict.get?_set]
    unfold lastValue
    rw [List.reverse_cons, List.find?_append]
    cases h : items.reverse.find? (fun kv => decide (kv.1 = k)) with
    | some p => simp
    | none =>
      by_cases e : kv.1 = k
      · simp [e]
      · simp [e]

/-- C10: decoding `items` (repeated keys allowed) gives a dict with one entry per key, in order of
first appearance, each holding the value that came last. -/
theorem C10_last_wins (items : List (String × String)) (rest : Bytes) (hlen : items.length < 2 ^ 35)
    (hok : ∀ kv ∈ items, StrOK kv.1 ∧ StrOK kv.2) :
    ∃ d : Dict String String,
      readStringDict ((writeStringDict items).out ++ rest) = .ok (d, rest) ∧
      (d.map (·.1)).Nodup ∧ d.map (·.1) = firstOccurrences (items.map (·.1)) ∧
      ∀ k, d.get? k = lastValue items k := by
  refine ⟨Dict.ofItems items, ?_, Dict.ofItems_wf items, ?_, ?_⟩
  · have : RoundTrips (writeStringDict items) readStringDict (Dict.ofItems items) := by
      unfold readStringDict readDict
      refine (rt_vint hlen).seq ?_
      rw [Int.toNat_natCast]
      have h1 := RoundTrips.forEach (wf := fun kv : String × String => writeString kv.1 ++ writeString kv.2)
        (r := readItem readString) (g := id) (l := items) (fun kv hkv => by
          unfold readItem
          refine (rt_string (hok kv hkv).1).seq ?_
          exact (rt_string (hok kv hkv).2).map (fun v => (kv.1, v)))
      have h2 := h1.map Dict.ofItems
      rw [List.map_id] at h2
      exact h2
    exact this.2 rest
  · have := keys_foldl_set items [] Dict.WF.nil
    unfold Dict.ofItems; rw [this]; simp
  · intro k
    have := get_foldl_set items [] k
    unfold Dict.ofItems; rw [this]; simp [Dict.get?]

example := C10_last_wins [("a", "1"), ("b", "2"), ("a", "3")] [9] (by decide) (by decide)

example : readStringDict ((writeStringDict [("a", "1"), ("b", "2"), ("a", "3")]).out ++ [9]) =
    .ok ([("a", "3"), ("b", "2")], [9]) := by decide +kernel

/-! ## C11 -/

theorem C11_of {α : Type} [PyEnum α] (h : ∀ e : α, RoundTrips (writeEnum e) (readEnum α) e) :
    C11_statement α := by
  refine ⟨h, fun e e' heq => ?_, fun n rest hn => ?_⟩
  · have h1 := (h e).2 []
    rw [heq, (h e').2 []] at h1
    cases h1; rfl
  · unfold readEnum
    by_cases hlt : n < 2 ^ 35
    · rw [Reader.bind_ok ((rt_vint hlt).2 rest)]
      unfold enumOf PyEnum.ofValue?
      cases hf : (PyEnum.members (α := α)).find? (fun m => PyEnum.value m == (n : Int)) with
      | none => exact ⟨_, rfl⟩
      | some e =>
        have := List.find?_some hf
        exact absurd (by simpa using this) (hn e)
    · exact ⟨_, Reader.bind_error ((C02_too_large n (by omega)).2 rest)⟩

example := C11_of rt_method

/-- C11: REST methods, REST statuses, HTTP versions, time units and byte-size units round-trip,
have distinct encodings, and any other ordinal raises. -/
theorem C11_enums :
    C11_statement RestMethod ∧ C11_statement RestStatus ∧ C11_statement HttpVersion ∧
    C11_statement TimeUnit ∧ C11_statement ByteSizeUnit :=
  ⟨C11_of rt_method, C11_of rt_status, C11_of rt_httpVersion, C11_of rt_timeUnit,
    C11_of rt_byteSizeUnit⟩

/-- C11: the error for an unknown ordinal that fits a v_int is ValueError. -/
theorem C11_unknown_is_value_error (n : Nat) (rest : Bytes) (hlt : n < 2 ^ 35) (hn : 47 ≤ n) :
    readEnum RestStatus ((writeVInt n).out ++ rest) = .error .value := by
  unfold readEnum
  rw [Reader.bind_ok ((rt_vint hlt).2 rest)]
  unfold enumOf PyEnum.ofValue?
  cases hf : (PyEnum.members (α := RestStatus)).find? (fun m => PyEnum.value m == (n : Int)) with
  | none => rfl
  | some e =>
    have h1 := List.find?_some hf
    have h2 : PyEnum.value e = (n : Int) := by simpa using h1
    have h3 : PyEnum.value e < 47 := by cases e <;> decide
    omega

example := C11_unknown_is_value_error 47 [1] (by decide) (by decide)

example : readEnum RestStatus [21] = .ok (.NOT_FOUND, []) := by decide +kernel
example : ∀ e : RestMethod, PyEnum.value e ≠ ((9 : Nat) : Int) := by intro e; cases e <;> decide

/-! ## C12 -/

/-- C12: time and byte-size values of magnitude below 2^63 round-trip; others raise ValueError
before writing anything. -/
theorem C12_values (n : Int) (u : TimeUnit) (b : ByteSizeUnit) :
    (n.natAbs < 2 ^ 63 →
      RoundTrips (writeTimeValue ⟨n, u⟩) readTimeValue ⟨n, u⟩ ∧
      RoundTrips (writeByteSizeValue ⟨n, b⟩) readByteSizeValue ⟨n, b⟩) ∧
    (2 ^ 63 ≤ n.natAbs →
      writeTimeValue ⟨n, u⟩ = ⟨[], some .value⟩ ∧ writeByteSizeValue ⟨n, b⟩ = ⟨[], some .value⟩) := by
  refine ⟨fun h => ⟨rt_timeValue (by simp only; omega) (by simp only; omega),
    rt_byteSizeValue (by simp only; omega) (by simp only; omega)⟩, fun h => ?_⟩
  have := C05_out_of_range n h
  constructor
  · unfold writeTimeValue; rw [W.append_err (e := .value) (by simp [this])]; exact this
  · unfold writeByteSizeValue; rw [W.append_err (e := .value) (by simp [this])]; exact this

example : readTimeValue ((writeTimeValue ⟨-7, .HOURS⟩).out ++ [1]) = .ok (⟨-7, .HOURS⟩, [1]) := by
  decide +kernel

/-! ## C13 -/

/-- C13: every supported value, nested to any depth within the interpreter's recursion limit
`limit`, round-trips. -/
theorem C13_roundtrip (v : PyVal) (limit : Nat) (h : GenericOK v) (hd : nesting v ≤ limit) :
    RoundTrips (writeGeneric v) (readGeneric limit) v := rt_generic v limit h hd

example := C13_roundtrip (.list [.none, .str "a", .list [.int (-5), .bool true], .bytes [1, 2]]) 3
  (by simp only [GenericOK, GenericsOK]; decide +kernel) (by decide)

mutual
theorem generic_deep : ∀ (v : PyVal) (d : Nat) (rest : Bytes), GenericOK v → d < nesting v →
    readGeneric d ((writeGeneric v).out ++ rest) = .error .recursion
  | _, 0, _, _, _ => rfl
  | .none, d + 1, _, _, hd => by simp [nesting] at hd
  | .bool _, d + 1, _, _, hd => by simp [nesting] at hd
  | .str _, d + 1, _, _, hd => by simp [nesting] at hd
  | .int _, d + 1, _, _, hd => by simp [nesting] at hd
  | .bytes _, d + 1, _, _, hd => by simp [nesting] at hd
  | .other _ _, d + 1, _, _, hd => by simp [nesting] at hd
  | .list l, d + 1, rest, h, hd => by
    rw [GenericOK] at h
    rw [nesting] at hd
    have hb := (rt_byte (i := 7) (by decide) (by decide))
    have hn := (rt_vint h.1)
    rw [readGeneric_succ, writeGeneric, W.out_append hb.1, W.out_append hn.1, List.append_assoc,
      Reader.bind_ok (hb.2 _)]
    simp only [if_neg (show ¬ ((7 : Int) = -1) by decide), if_neg (show ¬ ((7 : Int) = 0) by decide),
      if_neg (show ¬ ((7 : Int) = 1) by decide), if_neg (show ¬ ((7 : Int) = 2) by decide),
      if_neg (show ¬ ((7 : Int) = 5) by decide), if_neg (show ¬ ((7 : Int) = 6) by decide)]
    rw [if_pos trivial, List.append_assoc]
    refine (Reader.bind_ok (hn.2 _)).trans ?_
    apply Reader.bind_error
    rw [Int.toNat_natCast]
    exact generics_deep l d rest h.2 (by omega)
theorem generics_deep : ∀ (l : List PyVal) (d : Nat) (rest : Bytes), GenericsOK l → d < nestings l →
    (readGeneric d).times l.length ((writeGenericList l).out ++ rest) = .error .recursion
  | [], d, _, _, hd => by simp [nestings] at hd
  | v :: vs, d, rest, h, hd => by
    rw [GenericsOK] at h
    rw [nestings] at hd
    have hw := rt_generic v (nesting v) h.1 (le_refl _)
    rw [writeGenericList, W.out_append hw.1, List.append_assoc, List.length_cons, Reader.times]
    by_cases hv : d < nesting v
    · exact Reader.bind_error (generic_deep v d _ h.1 hv)
    · refine (Reader.bind_ok ((rt_generic v d h.1 (by omega)).2 _)).trans ?_
      exact Reader.bind_error (generics_deep vs d rest h.2 (by omega))
end

/-- C13, the other side of the limit: the bytes of a value nested deeper than the interpreter's recursion limit are not
decoded to anything else, reading them raises RecursionError. -/
theorem C13_too_deep (v : PyVal) (limit : Nat) (rest : Bytes) (h : GenericOK v) (hd : limit < nesting v) :
    readGeneric limit ((writeGeneric v).out ++ rest) = .error .recursion := generic_deep v limit rest h hd

example := C13_too_deep (.list [.none, .list [.list [.int 1]]]) 3 [7]
  (by simp only [GenericOK, GenericsOK]; decide +kernel) (by decide)

/-- C13 is violated for values of any other type (floats, dicts, tuples ...): nothing at all is
written and no exception is raised. -/
theorem C13_other_types_violated (truthy : Bool) (text : String) :
    writeGeneric (.other truthy text) = ⟨[], none⟩ := by rw [writeGeneric]; rfl

theorem genericList_append (a b : List PyVal) :
    writeGenericList (a ++ b) = writeGenericList a ++ writeGenericList b := by
  induction a with
  | nil => rw [List.nil_append, writeGenericList, W.nil_append]
  | cons v a ih => rw [List.cons_append, writeGenericList, ih, writeGenericList, W.append_assoc]

/-- C13 is violated inside lists too, with more damage: the list is written without its unsupported element, but with the element
counted, so whoever reads it takes the next value on the stream for the last element of the list. -/
theorem C13_swallowed_violated (a b : List PyVal) (truthy : Bool) (text : String) (v : PyVal) (limit : Nat) (rest : Bytes)
    (h : GenericOK (.list (a ++ b ++ [v]))) (hd : nesting (.list (a ++ b ++ [v])) ≤ limit) :
    (writeGeneric (.list (a ++ .other truthy text :: b))).err = none ∧
    readGeneric limit ((writeGeneric (.list (a ++ .other truthy text :: b))).out ++ (writeGeneric v).out ++ rest) =
      .ok (.list (a ++ b ++ [v]), rest) := by
  have rt := C13_roundtrip _ limit h hd
  have e : writeGeneric (.list (a ++ b ++ [v])) = writeGeneric (.list (a ++ .other truthy text :: b)) ++ writeGeneric v := by
    rw [writeGeneric, writeGeneric, genericList_append, genericList_append a (_ :: b), genericList_append]
    rw [writeGenericList.eq_2 (.other truthy text), writeGeneric.eq_7, W.nil_append, writeGenericList.eq_2 v, writeGenericList.eq_1, W.append_nil]
    have : (a ++ b ++ [v]).length = (a ++ PyVal.other truthy text :: b).length := by simp
    rw [this]
    simp only [W.append_assoc]
  rw [e] at rt
  have h1 := (W.err_append _ _).1 rt.1
  refine ⟨h1.1, ?_⟩
  rw [← W.out_append h1.1]
  exact rt.2 rest

example := C13_swallowed_violated [.int 1] [.str "x"] true "1.5" (.bool true) 2 [9] (by simp only [GenericOK, GenericsOK, List.cons_append, List.nil_append]; decide +kernel) (by decide)

/-- C13, integers outside 64 bits raise OverflowError (after the type byte was written). -/
theorem C13_int_overflow (i : Int) (h : i < -(2 ^ 63) ∨ 2 ^ 63 ≤ i) :
    (writeGeneric (.int i)).err = some .overflow := by
  rw [writeGeneric, W.append_ok (rt_byte (i := 2) (by decide) (by decide)).1, (C01_overflow i).2.2 h]

example := C13_int_overflow (2 ^ 63) (.inr (by decide))

example : GenericOK (.list [.none, .str "a", .list [.int (-5), .bool true], .bytes [1, 2]]) := by
  simp only [GenericOK, GenericsOK]; decide +kernel
example : nesting (.list [.none, .list [.list []]]) = 3 := by decide

/-! ## C14 -/

theorem stringSize_le (s : String) : stringSize s ≤ (writeString s).out.length := by
  have e : (writeString s).out.length = (varint (utf8 s).length).length + (utf8 s).length := by
    unfold writeString
    rw [W.out_append (by simp), writeVInt_nat_out, List.length_append]
    split
    · rfl
    · next h => simp at h; simp [h]
  rw [e, stringSize, vIntSize_nat]
  have := varint_length_mono (length_le_utf8 s)
  omega

theorem stringSize_eq_iff (s : String) :
    stringSize s = (writeString s).out.length ↔ vIntSize s.length = vIntSize (utf8 s).length := by
  have e : (writeString s).out.length = (varint (utf8 s).length).length + (utf8 s).length := by
    unfold writeString
    rw [W.out_append (by simp), writeVInt_nat_out, List.length_append]
    split
    · rfl
    · next h => simp at h; simp [h]
  rw [e, stringSize, vIntSize_nat, vIntSize_nat]; omega

@[simp] theorem writeString_err (s : String) : (writeString s).err = none := by
  unfold writeString; rw [W.err_append]; refine ⟨by simp, ?_⟩; split <;> rfl

theorem forEach_err {α} {f : α → W} {l : List α} (h : ∀ x ∈ l, (f x).err = none) :
    (W.forEach f l).err = none := by
  induction l with
  | nil => rfl
  | cons x l ih =>
    rw [W.forEach, W.err_append]
    exact ⟨h x (by simp), ih (fun y hy => h y (by simp [hy]))⟩

theorem forEach_out_length {α} {f : α → W} {l : List α} (h : ∀ x ∈ l, (f x).err = none) :
    (W.forEach f l).out.length = (l.map fun x => (f x).out.length).sum := by
  induction l with
  | nil => rfl
  | cons x l ih =>
    rw [W.forEach, W.out_append (h x (by simp)), List.length_append,
      ih (fun y hy => h y (by simp [hy]))]; simp

@[simp] theorem writeStringArray_err (l : List String) : (writeStringArray l).err = none := by
  unfold writeStringArray; rw [W.err_append]
  exact ⟨by simp, forEach_err (fun _ _ => by simp)⟩

theorem writeStringArray_length (l : List String) : (writeStringArray l).out.length =
    vIntSize l.length + (l.map fun s => (writeString s).out.length).sum := by
  unfold writeStringArray
  rw [W.out_append (by simp), List.length_append, forEach_out_length (fun _ _ => by simp),
    writeVInt_nat_out, vIntSize_nat]

@[simp] theorem writeStringDict_err (d : Dict String String) : (writeStringDict d).err = none := by
  unfold writeStringDict; rw [W.err_append]
  exact ⟨by simp, forEach_err (fun _ _ => by simp)⟩

theorem writeStringDict_length (d : Dict String String) : (writeStringDict d).out.length =
    vIntSize d.length +
      (d.map fun kv => (writeString kv.1).out.length + (writeString kv.2).out.length).sum := by
  unfold writeStringDict
  rw [W.out_append (by simp), List.length_append, forEach_out_length (fun _ _ => by simp),
    writeVInt_nat_out, vIntSize_nat]
  refine congrArg (_ + ·) (congrArg List.sum (List.map_congr_left ?_))
  intro kv _; rw [W.out_append (by simp), List.length_append]

@[simp] theorem writeStringArrayDict_err (d : Dict String (List String)) :
    (writeStringArrayDict d).err = none := by
  unfold writeStringArrayDict; rw [W.err_append]
  exact ⟨by simp, forEach_err (fun _ _ => by simp)⟩

theorem writeStringArrayDict_length (d : Dict String (List String)) :
    (writeStringArrayDict d).out.length = vIntSize d.length +
      (d.map fun kv => (writeString kv.1).out.length + (writeStringArray kv.2).out.length).sum := by
  unfold writeStringArrayDict
  rw [W.out_append (by simp), List.length_append, forEach_out_length (fun _ _ => by simp),
    writeVInt_nat_out, vIntSize_nat]
  refine congrArg (_ + ·) (congrArg List.sum (List.map_congr_left ?_))
  intro kv _; rw [W.out_append (by simp), List.length_append]

theorem foldl_add_sum {α} (f : α → Nat) (l : List α) (a : Nat) :
    l.foldl (fun r x => r + f x) a = a + (l.map f).sum := by
  induction l generalizing a with
  | nil => simp
  | cons x l ih => rw [List.foldl_cons, ih]; simp; omega

theorem stringDictSize_eq (d : Dict String String) : stringDictSize d =
    vIntSize d.length + (d.map fun kv => stringSize kv.1 + stringSize kv.2).sum := by
  unfold stringDictSize
  rw [← foldl_add_sum]; congr; funext r kv; omega

theorem stringCollDictSize_eq (d : Dict String (List String)) : stringCollDictSize d =
    vIntSize d.length + (d.map fun kv => stringSize kv.1 +
      (vIntSize kv.2.length + (kv.2.map stringSize).sum)).sum := by
  unfold stringCollDictSize
  rw [← foldl_add_sum]; congr; funext r kv; rw [foldl_add_sum]; omega

theorem sum_le_sum {α} {f g : α → Nat} {l : List α} (h : ∀ x ∈ l, f x ≤ g x) :
    (l.map f).sum ≤ (l.map g).sum := by
  induction l with
  | nil => simp
  | cons x l ih =>
    have := h x (by simp); have := ih (fun y hy => h y (by simp [hy])); simp; omega

theorem sum_eq_iff {α} {f g : α → Nat} {l : List α} (h : ∀ x ∈ l, f x ≤ g x) :
    (l.map f).sum = (l.map g).sum ↔ ∀ x ∈ l, f x = g x := by
  induction l with
  | nil => simp
  | cons x l ih =>
    have h1 := h x (by simp)
    have h2 := fun y hy => h y (List.mem_cons_of_mem x hy)
    have h3 := sum_le_sum h2
    have h4 := ih h2
    simp only [List.map_cons, List.sum_cons, List.forall_mem_cons]
    constructor
    · intro e; exact ⟨by omega, h4.1 (by omega)⟩
    · rintro ⟨e1, e2⟩; have := h4.2 e2; omega

instance (s : String) : Decidable (SizedRight s) := inferInstanceAs (Decidable (_ = _))

/-- C14, exact characterisation: the predictions never exceed the bytes written, and are exact iff
every string in the dict has a code point count and a byte count of the same v_int length. -/
theorem C14_characterisation (d : Dict String String) (dl : Dict String (List String)) :
    (stringDictSize d ≤ (writeStringDict d).out.length ∧
      (stringDictSize d = (writeStringDict d).out.length ↔
        ∀ kv ∈ d, SizedRight kv.1 ∧ SizedRight kv.2)) ∧
    (stringCollDictSize dl ≤ (writeStringArrayDict dl).out.length ∧
      (stringCollDictSize dl = (writeStringArrayDict dl).out.length ↔
        ∀ kv ∈ dl, SizedRight kv.1 ∧ ∀ s ∈ kv.2, SizedRight s)) := by
  refine ⟨?_, ?_⟩
  · have hle : ∀ kv ∈ d, stringSize kv.1 + stringSize kv.2 ≤
        (writeString kv.1).out.length + (writeString kv.2).out.length := fun kv _ => by
      have := stringSize_le kv.1; have := stringSize_le kv.2; omega
    rw [stringDictSize_eq, writeStringDict_length]
    refine ⟨Nat.add_le_add_left (sum_le_sum hle) _, ?_⟩
    rw [Nat.add_left_cancel_iff, sum_eq_iff hle]
    refine forall₂_congr fun kv _ => ?_
    have h1 := stringSize_le kv.1; have h2 := stringSize_le kv.2
    have e1 := stringSize_eq_iff kv.1; have e2 := stringSize_eq_iff kv.2
    unfold SizedRight; rw [← e1, ← e2]; omega
  · have hle : ∀ kv ∈ dl, stringSize kv.1 + (vIntSize kv.2.length + (kv.2.map stringSize).sum) ≤
        (writeString kv.1).out.length + (writeStringArray kv.2).out.length := fun kv _ => by
      rw [writeStringArray_length]
      have := stringSize_le kv.1
      have := sum_le_sum (l := kv.2) (fun s _ => stringSize_le s)
      omega
    rw [stringCollDictSize_eq, writeStringArrayDict_length]
    refine ⟨Nat.add_le_add_left (sum_le_sum hle) _, ?_⟩
    rw [Nat.add_left_cancel_iff, sum_eq_iff hle]
    refine forall₂_congr fun kv _ => ?_
    rw [writeStringArray_length]
    have h1 := stringSize_le kv.1
    have h2 := sum_le_sum (l := kv.2) (fun s _ => stringSize_le s)
    have e1 := stringSize_eq_iff kv.1
    have e2 := sum_eq_iff (l := kv.2) (fun s _ => stringSize_le s)
    have e3 : (∀ s ∈ kv.2, SizedRight s) ↔ ∀ s ∈ kv.2, stringSize s = (writeString s).out.length :=
      forall₂_congr fun s _ => (stringSize_eq_iff s).symm
    rw [e3, ← e2]
    unfold SizedRight; rw [← e1]; omega

theorem sizedRight_ascii {s : String} (h : Ascii s) : SizedRight s := by
  unfold SizedRight; rw [utf8_length_ascii h]

theorem sizedRight_short {s : String} (h : (utf8 s).length < 128) : SizedRight s := by
  have := length_le_utf8 s
  unfold SizedRight; rw [vIntSize_nat, vIntSize_nat, varint_lt (by omega), varint_lt h]; rfl

/-- C14, the part that holds: the predictions are exact when every string is ASCII or shorter
than 128 encoded bytes. -/
theorem C14_partial (d : Dict String String) (dl : Dict String (List String))
    (h : ∀ kv ∈ d, (Ascii kv.1 ∨ (utf8 kv.1).length < 128) ∧ (Ascii kv.2 ∨ (utf8 kv.2).length < 128))
    (hl : ∀ kv ∈ dl, (Ascii kv.1 ∨ (utf8 kv.1).length < 128) ∧
      ∀ s ∈ kv.2, Ascii s ∨ (utf8 s).length < 128) :
    stringDictSize d = (writeStringDict d).out.length ∧
    stringCollDictSize dl = (writeStringArrayDict dl).out.length := by
  have k : ∀ s : String, (Ascii s ∨ (utf8 s).length < 128) → SizedRight s :=
    fun s h => h.elim sizedRight_ascii sizedRight_short
  exact ⟨(C14_characterisation d dl).1.2.2 fun kv hkv => ⟨k _ (h kv hkv).1, k _ (h kv hkv).2⟩,
    (C14_characterisation d dl).2.2.2 fun kv hkv =>
      ⟨k _ (hl kv hkv).1, fun s hs => k s ((hl kv hkv).2 s hs)⟩⟩

example := C14_partial [("a", "é")] [("k", ["x", "√"])] (by decide +kernel) (by decide +kernel)

/-- C14 is violated: a dict with the 64-character key "é" * 64 (128 bytes) is one byte longer than
predicted. -/
theorem C14_violated :
    ∃ d : Dict String String, StrDictOK d ∧ stringDictSize d ≠ (writeStringDict d).out.length := by
  refine ⟨[(String.ofList (List.replicate 64 'é'), "")], by decide +kernel, by decide +kernel⟩

example : Ascii "content-type" := by decide

/-! ## C15 (violated) -/

/-- What truncated varints decode to: from the first `k` bytes of the encoding of `n`, `read_v_int`
returns `n mod 128^k` without any error. -/
theorem readVInt_truncated (n k : Nat) (hn : n < 2 ^ 35) (hk : k < (varint n).length) :
    readVInt ((varint n).take k) = .ok (((n % 128 ^ k : Nat) : Int), []) := by
  have step : ∀ (sh i n k : Nat) (f : Nat → Reader Int), i < 2 ^ sh → k + 1 < (varint n).length →
      vstep sh i f ((varint n).take (k + 1)) = f (i + n % 128 * 2 ^ sh) ((varint (n / 128)).take k) := by
    intro sh i n k f hi hk
    have hge : 128 ≤ n := by
      by_contra h
      rw [varint_lt (by omega)] at hk; simp at hk
    rw [varint_ge hge, List.take_succ_cons, vstep_cons _ _ _ hi, toNat_cont, if_neg (by omega),
      show (n % 128 + 128) % 128 = n % 128 by omega]
  have step0 : ∀ (sh i n : Nat) (f : Nat → Reader Int),
      vstep sh i f ((varint n).take 0) = .ok ((i : Int), []) := by
    intro sh i n f; rw [List.take_zero, vstep_nil]
  have last0 : ∀ (i n : Nat), vintLast i ((varint n).take 0) = .ok ((i : Int), []) := by
    intro i n
    rw [List.take_zero, vintLast, Reader.bind_ok readByte_nil]
    have h1 : low7 0 = 0 := by decide +kernel
    have h2 : more 0 = false := by decide +kernel
    simp [h1, h2, Reader.pure_def]
  have hlen : (varint n).length ≤ 5 := (varint_length_le 4 n).2 (by omega)
  have hl : ∀ m, 128 ≤ m → (varint m).length = (varint (m / 128)).length + 1 := by
    intro m hm; rw [varint_ge hm]; simp
  have hsm : ∀ m, 1 < (varint m).length → 128 ≤ m := by
    intro m hm; by_contra h; rw [varint_lt (by omega)] at hm; simp at hm
  rw [readVInt_steps]
  match k, hk with
  | 0, _ => rw [step0]; simp [Nat.mod_one]
  | 1, h1 =>
    rw [step _ _ _ _ _ (by omega) (by omega), step0]; simp
  | 2, h1 =>
    have a1 := hsm n (by omega)
    have a2 := hl n a1
    rw [step _ _ _ _ _ (by omega) (by omega), step _ _ _ _ _ (by omega) (by omega), step0]
    congr 2; omega
  | 3, h1 =>
    have a1 := hsm n (by omega)
    have a2 := hl n a1
    have a3 := hsm (n / 128) (by omega)
    have a4 := hl _ a3
    rw [step _ _ _ _ _ (by omega) (by omega), step _ _ _ _ _ (by omega) (by omega),
      step _ _ _ _ _ (by omega) (by omega), step0]
    congr 2; omega
  | 4, h1 =>
    have a1 := hsm n (by omega)
    have a2 := hl n a1
    have a3 := hsm (n / 128) (by omega)
    have a4 := hl _ a3
    have a5 := hsm (n / 128 / 128) (by omega)
    have a6 := hl _ a5
    rw [step _ _ _ _ _ (by omega) (by omega), step _ _ _ _ _ (by omega) (by omega),
      step _ _ _ _ _ (by omega) (by omega), step _ _ _ _ _ (by omega) (by omega), last0]
    congr 2; omega
  | k + 5, h1 => omega

/-- C15 is violated by every integer decoder, for every value and every truncation point: no
proper prefix of an encoding is refused.  A truncated v_int decodes to its low-order groups. -/
theorem C15_violated_vint (n k : Nat) (hn : n < 2 ^ 35) (hk : k < (writeVInt n).out.length) :
    readVInt ((writeVInt n).out.take k) = .ok (((n % 128 ^ k : Nat) : Int), []) := by
  rw [writeVInt_nat_out] at hk ⊢; exact readVInt_truncated n k hn hk

example := C15_violated_vint 300 1 (by decide) (by decide +kernel)

/-- C15 is violated by booleans and fixed-width integers: whatever is left is taken as a shorter
integer, nothing at all as 0. -/
theorem C15_violated_fixed (bs : Bytes) :
    (bs.length < 4 → ∃ i, readInt bs = .ok (i, [])) ∧
    (bs.length < 8 → ∃ i, readLong bs = .ok (i, [])) ∧
    readInt [] = .ok (0, []) ∧ readLong [] = .ok (0, []) ∧ readByte [] = .ok (0, []) ∧
    readBoolean [] = .ok (false, []) ∧ readString [] = .ok ("", []) ∧
    readStringDict [] = .ok ([], []) := by
  refine ⟨fun h => ⟨fromBytesSigned bs, ?_⟩, fun h => ⟨fromBytesSigned bs, ?_⟩, ?_⟩
  · unfold readInt
    rw [Reader.bind_ok (a := bs) (rest := []) (by simp [StreamInput.take]; omega)]; rfl
  · unfold readLong
    rw [Reader.bind_ok (a := bs) (rest := []) (by simp [StreamInput.take]; omega)]; rfl
  · decide +kernel

/-- C15 is violated by strings: cutting the encoding of `s ++ t` after `s` yields `s`. -/
theorem C15_violated_string (s t : String) (h : StrOK (s ++ t)) :
    readString ((writeVInt (utf8 (s ++ t)).length).out ++ utf8 s) = .ok (s, []) := by
  unfold readString
  rw [Reader.bind_ok ((rt_arraySize h).2 _)]
  rw [Reader.bind_ok (a := utf8 s) (rest := [])]
  · unfold decodeStr; rw [decodeUtf8_utf8]; rfl
  · rw [readBytes_nat, StreamInput.take, utf8_append]
    simp

example := C15_violated_string "ab" "é" (by decide +kernel)

/-- C15, the part that holds: truncated floats and doubles raise `struct.error`. -/
theorem C15_partial (n : Nat) (bs : Bytes) (h : bs.length < n) : readRaw n bs = .error .struct := by
  unfold readRaw
  rw [Reader.bind_ok (a := bs) (rest := []) (by
    rw [readBytes_nat, StreamInput.take, List.take_of_length_le (by omega),
      List.drop_eq_nil_iff.2 (by omega)])]
  rw [if_neg (by omega)]; rfl

example := C15_partial 8 [1, 2, 3] (by decide)

/-- Complete floats and doubles are taken as they are. -/
theorem readRaw_ok (bs rest : Bytes) : readRaw bs.length (bs ++ rest) = .ok (bs, rest) := by
  unfold readRaw
  rw [Reader.bind_ok (readBytes_append bs rest), if_pos rfl]; rfl

example : readVInt ((writeVInt 300).out.take 1) = .ok (44, []) := by decide +kernel

/-! ## C16 (violated for arrays) -/

theorem times_const_nil {α} (r : Reader α) (a : α) (h : r [] = .ok (a, [])) (n : Nat) :
    r.times n [] = .ok (List.replicate n a, []) := by
  induction n with
  | zero => rfl
  | succ n ih =>
    rw [Reader.times, Reader.bind_ok h, Reader.bind_ok ih]; rfl

/-- C16 is violated: for every announced size up to 2^31, an input of at most five bytes decodes to
an array of that many strings. -/
theorem C16_violated (n : Nat) (h : n ≤ 2 ^ 31) :
    ∃ input : Bytes, input.length ≤ 5 ∧
      readStringArray input = .ok (List.replicate n "", []) := by
  refine ⟨varint n, (varint_length_le 4 n).2 (by omega), ?_⟩
  unfold readStringArray
  have h1 := (rt_arraySize h).2 []
  rw [writeVInt_nat_out, List.append_nil] at h1
  rw [Reader.bind_ok h1, Int.toNat_natCast]
  exact times_const_nil _ _ (by decide +kernel) n

example := C16_violated (2 ^ 31) (by decide)

/-- C16 also fails for generic lists: six bytes announce any list length below 2^35. -/
theorem C16_violated_generic (n limit : Nat) (h : n < 2 ^ 35) (hl : 2 ≤ limit) :
    ∃ input : Bytes, input.length ≤ 6 ∧
      readGeneric limit input = .ok (.list (List.replicate n (.str "")), []) := by
  obtain ⟨d, rfl⟩ : ∃ d, limit = d + 2 := ⟨limit - 2, by omega⟩
  have hlen := (varint_length_le 4 n).2 (by omega)
  refine ⟨7 :: varint n, by simp; omega, ?_⟩
  rw [readGeneric_succ, Reader.bind_ok (readByte_cons 7 (varint n))]
  have hs : sbyte 7 = 7 := by decide
  rw [hs]
  have h1 := (rt_vint h).2 []
  rw [writeVInt_nat_out, List.append_nil] at h1
  have h2 : readGeneric (d + 1) [] = .ok (.str "", []) := by
    rw [readGeneric_succ, Reader.bind_ok readByte_nil]
    simp only [show ¬ ((0 : Int) = -1) by decide, if_false, if_true]
    rw [Reader.bind_ok (show readString [] = .ok ("", []) by decide +kernel)]; rfl
  simp only [show ¬ ((7 : Int) = -1) by decide, show ¬ ((7 : Int) = 0) by decide,
    show ¬ ((7 : Int) = 1) by decide, show ¬ ((7 : Int) = 2) by decide,
    show ¬ ((7 : Int) = 5) by decide, show ¬ ((7 : Int) = 6) by decide, if_false, if_true]
  rw [Reader.bind_ok h1, Int.toNat_natCast, Reader.bind_ok (times_const_nil _ _ h2 n)]; rfl

example := C16_violated_generic (2 ^ 35 - 1) 900 (by decide) (by decide)

theorem take_length_le {n : Nat} {bs b rest : Bytes} (h : take n bs = .ok (b, rest)) :
    b.length + rest.length = bs.length := by
  simp only [StreamInput.take, Except.ok.injEq, Prod.mk.injEq] at h
  obtain ⟨rfl, rfl⟩ := h
  simp [List.length_take, List.length_drop]; omega

/-- A reader never returns more unread bytes than it got. -/
def Shrinks {α} (r : Reader α) : Prop := ∀ bs a rest, r bs = .ok (a, rest) → rest.length ≤ bs.length

theorem Shrinks.bind {α β} {r : Reader α} {f : α → Reader β} (h : Shrinks r) (h' : ∀ a, Shrinks (f a)) :
    Shrinks (r >>= f) := by
  intro bs b rest hb
  rw [Reader.bind_eq_ok] at hb
  obtain ⟨a, mid, h1, h2⟩ := hb
  have := h _ _ _ h1; have := h' _ _ _ _ h2; omega

theorem Shrinks.pure {α} (a : α) : Shrinks (Pure.pure a : Reader α) := by
  intro bs b rest h; cases h; exact Nat.le_refl _

theorem Shrinks.throw {α} (e : Err) : Shrinks (Reader.throw e : Reader α) := by
  intro bs b rest h; cases h

theorem shrinks_take (n : Nat) : Shrinks (take n) := by
  intro bs b rest h; have := take_length_le h; omega

theorem shrinks_readByte : Shrinks readByte := (shrinks_take 1).bind fun _ => Shrinks.pure _

theorem shrinks_vstep {sh i : Nat} {k : Nat → Reader Int} (h : ∀ j, Shrinks (k j)) :
    Shrinks (vstep sh i k) := by
  refine shrinks_readByte.bind fun b => ?_
  dsimp only
  split
  · exact Shrinks.pure _
  · exact h _

theorem shrinks_readVInt : Shrinks readVInt := by
  rw [readVInt_steps]
  refine shrinks_vstep fun _ => shrinks_vstep fun _ => shrinks_vstep fun _ => shrinks_vstep fun _ => ?_
  refine shrinks_readByte.bind fun b => ?_
  split
  · exact Shrinks.throw _
  · exact Shrinks.pure _

theorem shrinks_readArraySize : Shrinks readArraySize := by
  refine shrinks_readVInt.bind fun b => ?_
  split
  · exact Shrinks.throw _
  · exact Shrinks.pure _

/-- C16, the part that holds: a decoded string or byte string is never longer than the input. -/
theorem C16_partial (input rest : Bytes) :
    (∀ s, readString input = .ok (s, rest) → (utf8 s).length ≤ input.length) ∧
    (∀ b, readByteArray input = .ok (b, rest) → b.length ≤ input.length) := by
  refine ⟨fun s h => ?_, fun b h => ?_⟩
  · obtain ⟨n, h1, -⟩ := C08_accepts_only_utf8 input rest s h
    have := shrinks_readArraySize _ _ _ h1
    simp at this; omega
  · unfold readByteArray at h
    rw [Reader.bind_eq_ok] at h
    obtain ⟨n, mid, h1, h2⟩ := h
    have hs := shrinks_readArraySize _ _ _ h1
    have hr := readArraySize_range h1
    split at h2
    · lift n to Nat using hr.1
      rw [readBytes_nat] at h2
      have := take_length_le h2; omega
    · cases h2; simp

example : readStringArray [3] = .ok (["", "", ""], []) := by decide +kernel

end Verif
