import Verif.Props.Display
import Verif.Props.Whole
import Verif.Lemmas.Repr
/-!
# Secrets and the log (C100); the raw records (C98, C99)
-/

namespace Verif
open Py StreamInput StreamOutput

/-- C98: the raw bytes, received or sent, are logged on one line, whatever they are. -/
theorem C98_raw_partial (data : Bytes) : OneLine (readRecord data) ∧ OneLine (rawRecord "<" data) ∧
    OneLine (rawRecord ">" data) := by
  have h : ∀ d, OneLine d → OneLine (rawRecord d data) := by
    intro d hd
    unfold rawRecord
    simp only [oneLine_append, oneLine_bytesRepr, oneLine_nat, and_true, hd, true_and]
    decide +kernel
  exact ⟨oneLine_bytesRepr data, h _ (by decide +kernel), h _ (by decide +kernel)⟩

theorem byteChar_toNat (x : UInt8) : (Char.ofNat x.toNat).toNat = x.toNat := by
  have hx := x.toNat_lt
  have hv : x.toNat.isValidChar := .inl (by omega)
  rw [Char.ofNat, dif_pos hv]
  rfl

theorem byteChar_inj {x y : UInt8} (h : Char.ofNat x.toNat = Char.ofNat y.toNat) : x = y := by
  have := congrArg Char.toNat h
  rw [byteChar_toNat, byteChar_toNat] at this
  exact UInt8.toNat_inj.1 this

/-- C99: the record of a read determines the bytes read. -/
theorem C99_raw {raw raw' : Bytes} (h : readRecord raw = readRecord raw') : raw = raw' := by
  have e := congrArg String.toList h
  unfold readRecord bytesRepr at e
  rw [String.toList_append, String.toList_append] at e
  have e1 := (strRepr_delimited (fun _ => false)).inj (List.append_cancel_left e)
  have e2 := String.ofList_injective e1
  exact List.map_injective_iff.2 (fun _ _ => byteChar_inj) e2

/-! ## C100 -/

theorem clear_repr {s : String} (h : Clear s) {q : Char} (hq : q = '\'' ∨ q = '"') :
    ((utf8 s).map fun x => Char.ofNat x.toNat).flatMap (reprChar (fun _ => false) q) = s.toList := by
  rw [utf8_eq_flatMap]
  unfold Clear at h
  generalize s.toList = l at h
  induction l with
  | nil => rfl
  | cons c l ih =>
    obtain ⟨h1, h2, h3, h4, h5⟩ := h c List.mem_cons_self
    have hc : String.utf8EncodeChar c = [UInt8.ofNat c.toNat] := by
      unfold String.utf8EncodeChar
      exact if_pos (by have : c.val.toNat = c.toNat := rfl; omega)
    have hb : Char.ofNat (UInt8.ofNat c.toNat).toNat = c := by
      apply char_toNat_inj
      rw [byteChar_toNat, UInt8.toNat_ofNat']
      omega
    have hr : reprChar (fun _ => false) q c = [c] := by
      unfold reprChar
      rw [if_neg (by rcases hq with rfl | rfl <;> rintro (e | e) <;> contradiction), if_neg, if_neg, if_neg,
        if_neg (by omega), if_pos h5]
      all_goals (rintro rfl; exact absurd h4 (by decide))
    rw [List.flatMap_cons, hc, List.map_append, List.flatMap_append,
      ih fun d hd => h d (List.mem_cons_of_mem _ hd)]
    simp only [List.map_cons, List.map_nil, hb, List.flatMap_cons, List.flatMap_nil, hr]
    rfl

/-- A text within the bytes is within their `repr`. -/
theorem bytesRepr_infix {s : String} (h : Clear s) (a b : Bytes) :
    s.toList <:+: (bytesRepr (a ++ (utf8 s ++ b))).toList := by
  unfold bytesRepr
  rw [String.toList_append, strRepr_toList]
  simp only [String.toList_ofList]
  have hq := reprQuote_or ((a ++ (utf8 s ++ b)).map fun x => Char.ofNat x.toNat)
  generalize reprQuote ((a ++ (utf8 s ++ b)).map fun x => Char.ofNat x.toNat) = q at hq ⊢
  rw [List.map_append, List.map_append, List.flatMap_append, List.flatMap_append, clear_repr h hq]
  exact ⟨"b".toList ++ q :: (a.map fun x => Char.ofNat x.toNat).flatMap (reprChar (fun _ => false) q),
    (b.map fun x => Char.ofNat x.toNat).flatMap (reprChar (fun _ => false) q) ++ [q], by simp⟩

/-- C100 is false: every read that holds a REST request leaves the request's identity token in the log,
in clear, at level INFO. -/
theorem C100_violated {frame : Bytes} {ctx : ThreadContext} {f : List String} {r : ExtensionRestRequest}
    {a : String} {id : Int} {hs cp : Bool} (h : RequestFrame frame ctx f r.writeTo a id hs cp)
    (hr : RequestOK r) (hc : Clear r.principal_identifier_token) (before after : Bytes) :
    r.principal_identifier_token.toList <:+: (readRecord (before ++ frame ++ after)).toList := by
  obtain ⟨pre, _, hf, _⟩ := frame_body h
  obtain ⟨x, hx, _⟩ := restRequest_cut hr {}
  obtain ⟨n, m, hn⟩ : ∃ n m, (writeString r.principal_identifier_token).out =
      n ++ (utf8 r.principal_identifier_token ++ m) := by
    unfold writeString
    by_cases h0 : (utf8 r.principal_identifier_token).length > 0
    · simp only [if_pos h0]
      rw [writeVInt_nat, W.out_append (show (W.emit _).err = none from rfl)]
      exact ⟨_, [], by rw [List.append_nil]; rfl⟩
    · have : utf8 r.principal_identifier_token = [] := List.eq_nil_of_length_eq_zero (by omega)
      rw [this]
      exact ⟨_, [], by simp; rfl⟩
  have key := bytesRepr_infix hc (before ++ (pre ++ (x ++ (r.content_ ++ n))))
    (m ++ ((writeEnumOpt r.http_version).out ++ after))
  rw [hf, hx, hn]
  unfold readRecord
  simpa only [List.append_assoc] using key

/-- C100, as far as it holds: the other records about a REST request say nothing of the token: the record of
the REST request is the same whatever the token, and so are the records of the frame, as long as the
envelope (header, context, features, action) is the same.  Missing: the record of the raw bytes, for which
it is false (`C100_violated`). -/
theorem C100_texts_partial (p : Shown) (r : ExtensionRestRequest) (t : String) {raw raw' body body' : Bytes}
    {req : OutboundRequest} (h : IsRequest raw req body) (h' : IsRequest raw' req body') :
    restRecord p { r with principal_identifier_token := t } = restRecord p r ∧
      receivedRecords p raw = receivedRecords p raw' :=
  ⟨rfl, (records_request p h).trans (records_request p h').symm⟩

/-- A request with a token. -/
def tokenRest : ExtensionRestRequest := { sampleRest with principal_identifier_token := "eyJhbGciOi.J9" }

/-- Its frame. -/
def tokenFrame : Bytes := sampleFrame tokenRest.writeTo "internal:extensions/restexecuteonextensiontaction" 12

theorem tokenFrame_ok : RequestFrame tokenFrame sampleCtx ["f"] tokenRest.writeTo
    "internal:extensions/restexecuteonextensiontaction" 12 false false :=
  ⟨sampleOrder, Version.new 2070099, 0, 0, _, rfl, rfl, by decide +kernel, by decide +kernel, by decide +kernel,
    by decide +kernel, by decide +kernel, by decide +kernel⟩

theorem tokenRest_ok : RequestOK tokenRest := by constructor <;> decide +kernel

/-- C100: the token is in the log. -/
example : "eyJhbGciOi.J9".toList <:+: (readRecord ([] ++ tokenFrame ++ [])).toList :=
  C100_violated tokenFrame_ok tokenRest_ok
    (by have h : Clear "eyJhbGciOi.J9" := by unfold Clear; decide +kernel
        exact h) [] []

example := C99_raw (raw := [0, 39, 200]) (raw' := [0, 39, 200]) rfl

theorem token_isRequest : IsRequest tokenFrame (requestIn tokenFrame) (requestBody tokenFrame) :=
  isRequest_of (by decide +kernel) (by decide +kernel)
example := fun p : Shown => C100_texts_partial p tokenRest "other" token_isRequest token_isRequest

end Verif
