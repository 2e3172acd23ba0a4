import Verif.Props.Collections
import Mathlib.Tactic.Linarith
import Mathlib.Tactic.Ring
import Mathlib.Tactic.Positivity
import Mathlib.Tactic.NormNum
/-!
# C15, exactly: what every decoder makes of a truncated encoding
-/

namespace Verif
open Py StreamInput StreamOutput Spec

/-! ## Fixed-width integers -/

theorem beDigits_take (k m v : Nat) : (beDigits (k + m) v).take k = beDigits k (v / 256 ^ m) := by
  induction k with
  | zero => simp [beDigits]
  | succ k ih =>
    rw [show k + 1 + m = (k + m) + 1 by omega, beDigits, List.take_succ_cons, ih, beDigits]
    congr 2
    rw [Nat.div_div_eq_div_mul, ← pow_add, Nat.add_comm m k]

theorem fromBytesSigned_take {k m : Nat} (hk : 0 < k) {i : Int} (h1 : -(256 ^ (k + m) : Int) ≤ 2 * i)
    (h2 : 2 * i < 256 ^ (k + m)) :
    fromBytesSigned ((beDigits (k + m) (i % 256 ^ (k + m)).toNat).take k) = i / 256 ^ m := by
  rw [beDigits_take]
  have hp : (0 : Int) < 256 ^ m := by positivity
  have hq : (0 : Int) < 256 ^ k := by positivity
  have e : (i % 256 ^ (k + m)).toNat / 256 ^ m = (i / 256 ^ m % 256 ^ k).toNat := by
    have h0 : 0 ≤ i % 256 ^ (k + m) := Int.emod_nonneg _ (by positivity)
    have h0' : 0 ≤ i / 256 ^ m % 256 ^ k := Int.emod_nonneg _ (by positivity)
    apply Int.natCast_inj.1
    push_cast
    rw [Int.toNat_of_nonneg h0, Int.toNat_of_nonneg h0', pow_add, mul_comm]
    rw [Int.emod_def i, Int.emod_def (i / 256 ^ m), Int.ediv_ediv_of_nonneg (by positivity)]
    rw [mul_assoc, Int.sub_mul_ediv_left _ _ (by positivity)]
  rw [e]
  rw [pow_add] at h1 h2
  generalize hP : (256 : Int) ^ m = P at *
  generalize hQ : (256 : Int) ^ k = Q at *
  have hQ2 : ∃ q, Q = 2 * q := by
    obtain ⟨k, rfl⟩ : ∃ j, k = j + 1 := ⟨k - 1, by omega⟩
    exact ⟨128 * 256 ^ k, by rw [← hQ, pow_succ]; ring⟩
  obtain ⟨q, rfl⟩ := hQ2
  rw [← hQ]
  refine fromBytesSigned_beDigits hk ?_ ?_
  · rw [hQ]
    have : -q ≤ i / P := by
      rw [Int.le_ediv_iff_mul_le hp]; nlinarith
    omega
  · rw [hQ]
    have : i / P < q := by
      rw [Int.ediv_lt_iff_lt_mul hp]; nlinarith
    omega

/-- C15 is violated by fixed-width integers, for every value and every cut: the first `k` bytes of
an `int` (of a `long`) decode without error to the value divided by 256 for every byte missing,
rounded down, and no bytes at all decode to 0. -/
theorem C15_violated_fixed_exact (i : Int) :
    (-(2 ^ 31) ≤ i → i < 2 ^ 31 → ∀ k < 4,
      readInt ((writeInt i).out.take k) = .ok (if k = 0 then 0 else i / 256 ^ (4 - k), [])) ∧
    (-(2 ^ 63) ≤ i → i < 2 ^ 63 → ∀ k < 8,
      readLong ((writeLong i).out.take k) = .ok (if k = 0 then 0 else i / 256 ^ (8 - k), [])) := by
  have key : ∀ n k : Nat, k < n → -(256 ^ n : Int) ≤ 2 * i → 2 * i < 256 ^ n →
      (StreamInput.take n >>= fun bs => (pure (fromBytesSigned bs) : Reader Int))
        ((toBytesSigned n i).out.take k) = .ok (if k = 0 then 0 else i / 256 ^ (n - k), []) := by
    intro n k hk h1 h2
    rw [toBytesSigned_ok h1 h2]
    have hl : ((W.emit (beDigits n (i % 256 ^ n).toNat)).out.take k).length ≤ n := by
      rw [List.length_take]; omega
    rw [Reader.bind_ok (a := (W.emit (beDigits n (i % 256 ^ n).toNat)).out.take k) (rest := [])
      (by rw [StreamInput.take, List.take_of_length_le hl, List.drop_eq_nil_iff.2 hl])]
    rw [W.emit_out]
    by_cases h0 : k = 0
    · subst h0; rw [if_pos rfl]; rfl
    · rw [if_neg h0]
      have := fromBytesSigned_take (k := k) (m := n - k) (by omega) (i := i)
        (by rw [show k + (n - k) = n by omega]; exact h1) (by rw [show k + (n - k) = n by omega]; exact h2)
      rw [show k + (n - k) = n by omega] at this
      rw [this]; rfl
  exact ⟨fun h1 h2 k hk => key 4 k hk (by norm_num at h1 ⊢; omega) (by norm_num at h2 ⊢; omega),
    fun h1 h2 k hk => key 8 k hk (by norm_num at h1 ⊢; omega) (by norm_num at h2 ⊢; omega)⟩

example : readInt ((writeInt 1000000).out.take 3) = .ok (3906, []) := by decide +kernel

/-! ## Strings -/

theorem readArraySize_truncated (n k : Nat) (hn : n ≤ 2 ^ 31) (hk : k < (varint n).length) :
    readArraySize ((varint n).take k) = .ok (((n % 128 ^ k : Nat) : Int), []) := by
  unfold readArraySize
  rw [Reader.bind_ok (readVInt_truncated n k (by omega) hk)]
  have : n % 128 ^ k ≤ n := Nat.mod_le _ _
  rw [if_neg (by omega)]; rfl

theorem utf8_empty : utf8 "" = [] := by decide +kernel

/-- C15 for strings, exactly, for every string and every cut: cut inside the length prefix (or right
after it) the text decodes to the empty string; cut after `j` bytes of the text it decodes to the
string those bytes encode, if there is one, and raises UnicodeDecodeError otherwise. -/
theorem C15_string_exact_partial (s : String) (h : (utf8 s).length ≤ 2 ^ 31) :
    (∀ k ≤ (writeVInt (utf8 s).length).out.length,
      (utf8 s).length ≠ 0 → readString ((writeString s).out.take k) = .ok ("", [])) ∧
    ∀ j < (utf8 s).length,
      (∀ t, utf8 t = (utf8 s).take j →
        readString ((writeString s).out.take ((writeVInt (utf8 s).length).out.length + j)) = .ok (t, [])) ∧
      ((∀ t, utf8 t ≠ (utf8 s).take j) →
        readString ((writeString s).out.take ((writeVInt (utf8 s).length).out.length + j)) =
          .error .unicode) := by
  have e : (writeString s).out = varint (utf8 s).length ++ utf8 s := by
    unfold writeString
    simp only
    rw [writeVInt_nat]
    by_cases h0 : 0 < (utf8 s).length
    · rw [if_pos h0]; rfl
    · rw [if_neg h0, List.length_eq_zero_iff.1 (by omega : (utf8 s).length = 0)]
      simp
  rw [writeVInt_nat_out, e]
  have cut : ∀ j ≤ (utf8 s).length, ∀ r,
      decodeStr ((utf8 s).take j) [] = r →
      readString ((varint (utf8 s).length ++ utf8 s).take ((varint (utf8 s).length).length + j)) = r := by
    intro j hj r hr
    rw [List.take_length_add_append]
    unfold readString
    have := (rt_arraySize h).2 ((utf8 s).take j)
    rw [writeVInt_nat_out] at this
    rw [Reader.bind_ok this]
    rw [Reader.bind_ok (a := (utf8 s).take j) (rest := [])]
    · exact hr
    · rw [readBytes_nat, StreamInput.take, List.take_take, Nat.min_eq_right hj,
        List.drop_eq_nil_iff.2 (by rw [List.length_take]; omega)]
  refine ⟨fun k hk hne => ?_, fun j hj => ⟨fun t ht => cut j (by omega) _ ?_, fun hbad => cut j (by omega) _ ?_⟩⟩
  · rcases Nat.lt_or_ge k (varint (utf8 s).length).length with hlt | hge
    · rw [List.take_append_of_le_length (by omega)]
      unfold readString
      rw [Reader.bind_ok (readArraySize_truncated _ k h hlt)]
      rw [Reader.bind_ok (a := []) (rest := []) (by rw [readBytes_nat]; simp [StreamInput.take])]
      unfold decodeStr
      rw [← utf8_empty, decodeUtf8_utf8]; rfl
    · have : k = (varint (utf8 s).length).length + 0 := by omega
      rw [this]
      refine cut 0 (by omega) _ ?_
      unfold decodeStr
      rw [List.take_zero, ← utf8_empty, decodeUtf8_utf8]; rfl
  · unfold decodeStr; rw [← ht, decodeUtf8_utf8]; rfl
  · unfold decodeStr
    cases hd : decodeUtf8? ((utf8 s).take j) with
    | none => rfl
    | some t => exact absurd (decodeUtf8_eq_some.1 hd).symm (hbad t)

example := C15_string_exact_partial "aé€" (by decide)

/-- `é` is two bytes; cut after the first, it is refused. -/
example : readString ((writeString "aé").out.take 3) = .error .unicode ∧
    readString ((writeString "aé").out.take 2) = .ok ("a", []) := by decide +kernel

/-! ## Collections -/

theorem readString_nil : readString [] = .ok ("", []) := by decide +kernel

theorem times_append {α : Type} (r : Reader α) (m n : Nat) (bs mid rest : Bytes) (xs ys : List α)
    (h1 : r.times m bs = .ok (xs, mid)) (h2 : r.times n mid = .ok (ys, rest)) :
    r.times (m + n) bs = .ok (xs ++ ys, rest) := by
  induction m generalizing bs xs with
  | zero =>
    rw [Reader.times] at h1
    cases h1
    rw [Nat.zero_add]; exact h2
  | succ m ih =>
    rw [Nat.succ_add, Reader.times]
    rw [Reader.times, Reader.bind_eq_ok] at h1
    obtain ⟨x, b1, e1, h1⟩ := h1
    rw [Reader.bind_eq_ok] at h1
    obtain ⟨ys', b2, e2, h1⟩ := h1
    cases h1
    rw [Reader.bind_ok e1, Reader.bind_ok (ih _ _ e2)]; rfl

theorem forEach_out_append {α : Type} (f : α → W) (hf : ∀ x, (f x).err = none) (a b : List α) :
    (W.forEach f (a ++ b)).out = (W.forEach f a).out ++ (W.forEach f b).out := by
  induction a with
  | nil => rfl
  | cons x a ih =>
    rw [List.cons_append, W.forEach, W.out_append (hf x), ih, W.forEach, W.out_append (hf x),
      List.append_assoc]

theorem forEach_out_flatten {α : Type} (f : α → W) (hf : ∀ x, (f x).err = none) (a : List α) :
    (W.forEach f a).out = (a.map fun x => (f x).out).flatten := by
  induction a with
  | nil => rfl
  | cons x a ih => rw [W.forEach, W.out_append (hf x), ih]; rfl

theorem writeString_pos (s : String) : 0 < (writeString s).out.length := by
  apply List.length_pos_iff.2
  unfold writeString
  simp only
  rw [writeVInt_nat]
  intro h0
  rw [W.out_append rfl, W.emit_out] at h0
  have := (List.append_eq_nil_iff.1 h0).1
  rcases Nat.lt_or_ge (utf8 s).length 128 with hl | hl
  · rw [varint_lt hl] at this; cases this
  · rw [varint_ge hl] at this; cases this

/-- C15 is violated by string arrays: cut at the end of any element, the encoding decodes without
error, with an empty string in place of every element that is missing. -/
theorem C15_violated_array (a b : List String) (h : (a ++ b).length ≤ 2 ^ 31)
    (hs : ∀ s ∈ a ++ b, (utf8 s).length ≤ 2 ^ 31) :
    ∃ k, (b ≠ [] → k < (writeStringArray (a ++ b)).out.length) ∧
      (writeStringArray (a ++ b)).out.take k =
        (writeVInt (a ++ b).length).out ++ (a.map fun s => (writeString s).out).flatten ∧
      readStringArray ((writeStringArray (a ++ b)).out.take k) =
        .ok (a ++ List.replicate b.length "", []) := by
  have e : (writeStringArray (a ++ b)).out =
      (writeVInt (a ++ b).length).out ++ ((W.forEach writeString a).out ++ (W.forEach writeString b).out) := by
    unfold writeStringArray
    rw [W.out_append (rt_arraySize h).1, forEach_out_append _ writeString_err]
  refine ⟨(writeVInt (a ++ b).length).out.length + (W.forEach writeString a).out.length, fun hb => ?_, ?_, ?_⟩
  · rw [e]
    have hpos : 0 < (W.forEach writeString b).out.length := by
      cases b with
      | nil => exact absurd rfl hb
      | cons s b =>
        rw [W.forEach, W.out_append (writeString_err s), List.length_append]
        have := writeString_pos s
        omega
    generalize (writeVInt _).out = x
    simp only [List.length_append]
    omega
  · rw [e, List.take_length_add_append, List.take_left, forEach_out_flatten _ writeString_err]
  · rw [e, List.take_length_add_append, List.take_left]
    unfold readStringArray
    rw [Reader.bind_ok ((rt_arraySize h).2 _), Int.toNat_natCast, List.length_append]
    have h1 := (RoundTrips.forEach (g := id) (l := a) (fun s h' => rt_string (hs s (by simp [h'])))).2 []
    rw [List.append_nil, List.map_id] at h1
    exact times_append _ _ _ _ _ _ _ _ h1 (times_const_nil readString "" readString_nil _)

example := C15_violated_array ["a"] ["bc", "é"] (by decide) (by decide)

example : readStringArray ((writeStringArray ["ab", "cd", "ef"]).out.take 4) =
    .ok (["ab", "", ""], []) := by decide +kernel

theorem ofItems_get? (l : List (String × String)) (k : String) :
    (Dict.ofItems l).get? k = (l.reverse.find? (fun kv => kv.1 = k)).map (·.2) := by
  unfold Dict.ofItems
  suffices gen : ∀ (l : List (String × String)) (d : Dict String String),
      (l.foldl (fun d kv => Dict.set d kv.1 kv.2) d).get? k =
        match l.reverse.find? (fun kv => kv.1 = k) with
        | some kv => some kv.2
        | none => d.get? k by
    rw [gen]
    cases l.reverse.find? (fun kv => kv.1 = k) <;> rfl
  intro l
  induction l with
  | nil => intro d; rfl
  | cons x l ih =>
    intro d
    rw [List.foldl_cons, ih, List.reverse_cons, List.find?_append]
    cases l.reverse.find? (fun kv => kv.1 = k) with
    | some kv => rfl
    | none =>
      simp only [Option.none_or, List.find?_cons]
      rw [Dict.get?_set]
      by_cases hx : x.1 = k
      · simp [hx]
      · simp [hx]

/-- C15 is violated by string dictionaries: cut at the end of any item, the encoding decodes without
error to the items before the cut, with one more item, an empty string under the empty string, if
any item is missing. -/
theorem C15_violated_dict (a b : Dict String String) (hw : (a ++ b).WF) (h : (a ++ b).length < 2 ^ 35)
    (hs : ∀ kv ∈ a ++ b, (utf8 kv.1).length ≤ 2 ^ 31 ∧ (utf8 kv.2).length ≤ 2 ^ 31) (hb : b ≠ []) :
    ∃ k d, k < (writeStringDict (a ++ b)).out.length ∧
      (writeStringDict (a ++ b)).out.take k =
        (writeVInt (a ++ b).length).out ++ (a.map fun kv => (writeString kv.1).out ++ (writeString kv.2).out).flatten ∧
      readStringDict ((writeStringDict (a ++ b)).out.take k) = .ok (d, []) ∧
      d.get? "" = some "" ∧ ∀ key ≠ "", d.get? key = a.get? key := by
  have herr : ∀ kv : String × String, (writeString kv.1 ++ writeString kv.2).err = none := by simp
  have e : (writeStringDict (a ++ b)).out =
      (writeVInt (a ++ b).length).out ++ ((W.forEach (fun kv => writeString kv.1 ++ writeString kv.2) a).out ++
        (W.forEach (fun kv => writeString kv.1 ++ writeString kv.2) b).out) := by
    unfold writeStringDict
    rw [W.out_append (rt_vint h).1, forEach_out_append _ herr]
  have hitem : readItem readString [] = .ok (("", ""), []) := by decide +kernel
  refine ⟨(writeVInt (a ++ b).length).out.length +
    (W.forEach (fun kv => writeString kv.1 ++ writeString kv.2) a).out.length,
    Dict.ofItems (a ++ List.replicate b.length ("", "")), ?_, ?_, ?_, ?_, ?_⟩
  · rw [e]
    have hpos : 0 < (W.forEach (fun kv : String × String => writeString kv.1 ++ writeString kv.2) b).out.length := by
      cases b with
      | nil => exact absurd rfl hb
      | cons s b =>
        rw [W.forEach, W.out_append (herr s), W.out_append (writeString_err _), List.length_append,
          List.length_append]
        have := writeString_pos s.1
        omega
    generalize (writeVInt _).out = x
    simp only [List.length_append]
    omega
  · have hm : (fun kv : String × String => (writeString kv.1 ++ writeString kv.2).out) =
        fun kv => (writeString kv.1).out ++ (writeString kv.2).out :=
      funext fun kv => W.out_append (writeString_err _)
    rw [e, List.take_length_add_append, List.take_left, forEach_out_flatten _ herr, hm]
  · rw [e, List.take_length_add_append, List.take_left]
    unfold readStringDict readDict
    rw [Reader.bind_ok ((rt_vint h).2 _), Int.toNat_natCast, List.length_append]
    have h1 := (RoundTrips.forEach (g := id) (l := a) (r := readItem readString)
      (wf := fun kv : String × String => writeString kv.1 ++ writeString kv.2)
      (fun s h' => by
        unfold readItem
        refine (rt_string (hs s (List.mem_append_left _ h')).1).seq ?_
        exact (rt_string (hs s (List.mem_append_left _ h')).2).map (fun v => (s.1, v)))).2 []
    rw [List.append_nil, List.map_id] at h1
    rw [Reader.bind_ok (times_append _ _ _ _ _ _ _ _ h1 (times_const_nil _ _ hitem _))]
    rfl
  · rw [ofItems_get?]
    cases b with
    | nil => exact absurd rfl hb
    | cons s b =>
      rw [List.reverse_append, List.reverse_replicate, List.length_cons, List.replicate_succ]
      rfl
  · intro key hk
    rw [ofItems_get?, List.reverse_append, List.reverse_replicate, List.find?_append,
      List.find?_eq_none.2 (fun x hx => by
        rw [(List.mem_replicate.1 hx).2]; simpa using Ne.symm hk), Option.none_or]
    have hwa : (a : Dict String String).WF := by
      unfold Dict.WF at hw ⊢
      rw [List.map_append] at hw
      exact hw.of_append_left
    rw [← ofItems_get?, Dict.ofItems_of_wf hwa]

example := C15_violated_dict [("k", "v")] [("l", "w")] (by decide) (by decide) (by decide) (by decide)

example : readStringDict ((writeStringDict [("k", "v"), ("l", "w")]).out.take 5) =
    .ok ([("k", "v"), ("", "")], []) := by decide +kernel

end Verif
