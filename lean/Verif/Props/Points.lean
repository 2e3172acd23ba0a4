import Verif.Lemmas.Stream
import Verif.Lemmas.Utf8
import Verif.Lemmas.HostState
import Verif.Props.Collections
import Verif.Lemmas.Sample
import Verif.Spec.Points
/-!
# C120: any text at all

For every Python `str`: writing it either raises and writes nothing, or gives what reads back as the same text.
-/

namespace Verif
open Py StreamInput StreamOutput

theorem encodePoint_surrogate {c : Point} (h : Surrogate c) : encodePoint c = none := by
  obtain ⟨h1, h2⟩ := h
  unfold encodePoint
  dsimp only
  rw [if_neg (by omega), if_neg (by omega), if_pos (by omega)]

theorem encodePoint_char {c : Point} {x : Char} (h : x.toNat = c.val) :
    encodePoint c = some (String.utf8EncodeChar x) := by
  have hv : x.val.toNat = c.val := h
  have hs : ¬ (0xD800 ≤ c.val ∧ c.val < 0xE000) := by
    have := x.valid
    unfold UInt32.isValidChar Nat.isValidChar at this
    omega
  have hlt := c.isLt
  unfold encodePoint String.utf8EncodeChar
  dsimp only
  rw [hv]
  generalize c.val = n at *
  by_cases h1 : n < 0x80
  · rw [if_pos h1, if_pos (show n ≤ 127 by omega)]
  · rw [if_neg h1, if_neg (show ¬ n ≤ 127 by omega)]
    by_cases h2 : n < 0x800
    · rw [if_pos h2, if_pos (show n ≤ 2047 by omega)]
      rw [show 192 + n / 64 = n / 64 % 32 + 192 by omega, Nat.add_comm 128]
    · rw [if_neg h2, if_neg (show ¬ n ≤ 2047 by omega), if_neg hs]
      by_cases h3 : n < 0x10000
      · rw [if_pos h3, if_pos (show n ≤ 65535 by omega)]
        rw [show 224 + n / 4096 = n / 4096 % 16 + 224 by omega, Nat.add_comm 128, Nat.add_comm 128]
      · rw [if_neg h3, if_neg (show ¬ n ≤ 65535 by omega)]
        rw [show 240 + n / 262144 = n / 262144 % 8 + 240 by omega, Nat.add_comm 128, Nat.add_comm 128, Nat.add_comm 128]

/-- A code point that is no surrogate is a character. -/
theorem exists_char {c : Point} (h : ¬ Surrogate c) : ∃ x : Char, x.toNat = c.val := by
  have hv : Nat.isValidChar c.val := by
    unfold Nat.isValidChar
    unfold Surrogate at h
    have := c.isLt
    omega
  refine ⟨Char.ofNatAux c.val hv, ?_⟩
  rfl

theorem clean_spelled {s : Points} (h : Clean s) : ∃ t : String, SpelledBy t s := by
  induction s with
  | nil => exact ⟨"", rfl⟩
  | cons c cs ih =>
    obtain ⟨t, ht⟩ := ih (fun d hd => h d (List.mem_cons_of_mem _ hd))
    obtain ⟨x, hx⟩ := exists_char (h c (List.mem_cons_self ..))
    refine ⟨String.ofList (x :: t.toList), ?_⟩
    unfold SpelledBy at *
    rw [String.toList_ofList, List.map_cons, List.map_cons, hx, ht]

theorem spelled_clean {s : Points} {t : String} (h : SpelledBy t s) : Clean s := by
  intro c hc hsur
  have : c.val ∈ t.toList.map Char.toNat := by rw [h]; exact List.mem_map_of_mem hc
  obtain ⟨x, _, hx⟩ := List.mem_map.1 this
  have hv := x.valid
  have e : x.val.toNat = c.val := hx
  unfold UInt32.isValidChar Nat.isValidChar at hv
  unfold Surrogate at hsur
  omega

theorem encode_chars {s : Points} {l : List Char} (h : l.map Char.toNat = s.map Fin.val) :
    encodePoints s = some (l.flatMap String.utf8EncodeChar) := by
  induction s generalizing l with
  | nil =>
    cases l with
    | nil => rfl
    | cons x l => simp at h
  | cons c cs ih =>
    cases l with
    | nil => simp at h
    | cons x l =>
      simp only [List.map_cons, List.cons.injEq] at h
      simp only [encodePoints, encodePoint_char h.1, ih h.2, List.flatMap_cons]

theorem encode_spelled {s : Points} {t : String} (h : SpelledBy t s) : encodePoints s = some (utf8 t) := by
  rw [utf8_eq_flatMap]; exact encode_chars h

theorem encode_dirty {s : Points} (h : ¬ Clean s) : encodePoints s = none := by
  induction s with
  | nil => exact absurd (fun _ hc => by cases hc) h
  | cons c cs ih =>
    by_cases hc : Surrogate c
    · simp only [encodePoints, encodePoint_surrogate hc]
    · have : ¬ Clean cs := by
        intro hcs
        apply h
        intro d hd
        rcases List.mem_cons.1 hd with rfl | hd
        · exact hc
        · exact hcs d hd
      simp only [encodePoints, ih this]
      cases encodePoint c <;> rfl

theorem writePoints_spelled {s : Points} {t : String} (h : SpelledBy t s) : writePoints s = writeString t := by
  simp only [writePoints, encode_spelled h]
  rfl

theorem writePoints_dirty {s : Points} (h : ¬ Clean s) : writePoints s = ⟨[], some .unicode⟩ := by
  simp only [writePoints, encode_dirty h]
  rfl

theorem spelled_unique {s : Points} {t u : String} (h : SpelledBy t s) (h' : SpelledBy u s) : t = u := by
  apply utf8_inj
  have := encode_spelled h
  rw [encode_spelled h'] at this
  exact (Option.some.inj this).symm


theorem allClean_spelled {a : List Points} (h : ∀ s ∈ a, Clean s) : ∃ l : List String, List.Forall₂ SpelledBy l a := by
  induction a with
  | nil => exact ⟨[], .nil⟩
  | cons s a ih =>
    obtain ⟨l, hl⟩ := ih (fun t ht => h t (List.mem_cons_of_mem _ ht))
    obtain ⟨t, ht⟩ := clean_spelled (h s (List.mem_cons_self ..))
    exact ⟨t :: l, .cons ht hl⟩

theorem forEach_spelled {l : List String} {a : List Points} (h : List.Forall₂ SpelledBy l a) :
    W.forEach writePoints a = W.forEach writeString l := by
  induction h with
  | nil => rfl
  | cons h _ ih => simp only [W.forEach, writePoints_spelled h, ih]

theorem writePointsArray_spelled {l : List String} {a : List Points} (h : List.Forall₂ SpelledBy l a) :
    writePointsArray a = writeStringArray l := by
  simp only [writePointsArray, writeStringArray, forEach_spelled h, h.length_eq]

/-- `w` raises nothing but UnicodeEncodeError, and this one unless `p`. -/
def Picky (w : W) (p : Prop) : Prop := (p → w.err = none) ∧ (¬ p → w.err = some .unicode)

theorem Picky.append {v w : W} {p q : Prop} (h : Picky v p) (h' : Picky w q) : Picky (v ++ w) (p ∧ q) := by
  by_cases hp : p
  · rw [W.append_ok (h.1 hp)]
    exact ⟨fun hq => h'.1 hq.2, fun hn => h'.2 (fun hq => hn ⟨hp, hq⟩)⟩
  · rw [W.append_err (h.2 hp)]
    exact ⟨fun hq => absurd hq.1 hp, fun _ => h.2 hp⟩

theorem Picky.free {w : W} (h : w.err = none) : Picky w True := ⟨fun _ => h, fun hn => absurd trivial hn⟩

theorem Picky.forEach {α : Type} {f : α → W} {p : α → Prop} (h : ∀ x, Picky (f x) (p x)) (l : List α) :
    Picky (W.forEach f l) (∀ x ∈ l, p x) := by
  induction l with
  | nil => exact ⟨fun _ => rfl, fun hn => absurd (fun _ hx => by cases hx) hn⟩
  | cons x xs ih =>
    have := (h x).append ih
    simpa [Picky, W.forEach] using this

theorem picky_points (s : Points) : Picky (writePoints s) (Clean s) := by
  refine ⟨fun h => ?_, fun h => by rw [writePoints_dirty h]⟩
  obtain ⟨t, ht⟩ := clean_spelled h
  rw [writePoints_spelled ht]
  exact writeString_err _

theorem picky_array (a : List Points) : Picky (writePointsArray a) (∀ s ∈ a, Clean s) := by
  have := (Picky.free (w := writeVInt a.length) (by simp)).append (Picky.forEach picky_points a)
  simpa [Picky, writePointsArray] using this

/-- **C120** (characters).  A text of characters is written, and read back as the same text (up to the 2^31 bytes that
the decoder takes), whatever follows it. -/
theorem C120_written (s : Points) (h : Clean s) :
    (writePoints s).err = none ∧ ∃ t : String, SpelledBy t s ∧
      (StrOK t → RoundTrips (writePoints s) readString t) := by
  obtain ⟨t, ht⟩ := clean_spelled h
  rw [writePoints_spelled ht]
  exact ⟨writeString_err _, t, ht, rt_string⟩

example := C120_written [⟨0x48, by omega⟩, ⟨0xE9, by omega⟩, ⟨0x20AC, by omega⟩, ⟨0x1F600, by omega⟩]
  (by simp [Clean, Surrogate])

/-- **C120** (surrogates).  A text with a surrogate anywhere raises UnicodeEncodeError, and nothing of it is written. -/
theorem C120_refused (s : Points) {c : Point} (h : c ∈ s) (hc : Surrogate c) : writePoints s = ⟨[], some .unicode⟩ :=
  writePoints_dirty fun hs => hs c h hc

/-- A text with half of a pair: `"H\\ud83d"`. -/
def halfPair : Points := [⟨0x48, by omega⟩, ⟨0xD83D, by omega⟩]

theorem halfPair_dirty : ¬ Clean halfPair := by simp [Clean, Surrogate, halfPair]

example : writePoints halfPair = ⟨[], some .unicode⟩ :=
  C120_refused _ (c := ⟨0xD83D, by omega⟩) (by simp [halfPair]) (by simp [Surrogate])

theorem string_spelled (t : String) : ∃ s, SpelledBy t s := by
  refine ⟨t.toList.map fun c => ⟨c.toNat, ?_⟩, ?_⟩
  · have := c.valid
    unfold UInt32.isValidChar Nat.isValidChar at this
    have e : c.toNat = c.val.toNat := rfl
    omega
  · unfold SpelledBy
    rw [List.map_map]
    rfl

/-- **C120** (from the wire).  What `read_string` returns has characters only, so it can be written again. -/
theorem C120_read {bs rest : Bytes} {t : String} (_h : readString bs = .ok (t, rest)) :
    ∃ s, SpelledBy t s ∧ Clean s ∧ (writePoints s).err = none := by
  obtain ⟨s, hs⟩ := string_spelled t
  exact ⟨s, hs, spelled_clean hs, (picky_points s).1 (spelled_clean hs)⟩

example := C120_read (bs := [3, 0xE2, 0x82, 0xAC]) (t := "€") (rest := []) (by decide +kernel)

/-- **C120** (arrays).  An array is written exactly if every text in it has characters only, and then it is read back; else
UnicodeEncodeError is raised. -/
theorem C120_array (a : List Points) :
    ((∀ s ∈ a, Clean s) → (writePointsArray a).err = none ∧ ∃ l : List String, List.Forall₂ SpelledBy l a ∧
      (StrsOK l → RoundTrips (writePointsArray a) readStringArray l)) ∧
    (∀ s ∈ a, ¬ Clean s → (writePointsArray a).err = some .unicode) := by
  refine ⟨fun h => ⟨(picky_array a).1 h, ?_⟩, fun s hs hc => (picky_array a).2 fun h => hc (h s hs)⟩
  obtain ⟨l, hl⟩ := allClean_spelled h
  refine ⟨l, hl, fun ho => ?_⟩
  rw [writePointsArray_spelled hl]
  exact rt_stringArray ho

example : (writePointsArray [[⟨0x48, by omega⟩], halfPair]).err = some .unicode :=
  (C120_array _).2 halfPair (by simp) halfPair_dirty

theorem picky_dict (d : Dict Points Points) : Picky (writePointsDict d) (∀ kv ∈ d, Clean kv.1 ∧ Clean kv.2) := by
  have := (Picky.free (w := writeVInt d.length) (by simp)).append
    (Picky.forEach (fun kv : Points × Points => (picky_points kv.1).append (picky_points kv.2)) d)
  simpa [Picky, writePointsDict] using this

theorem picky_arrayDict (d : Dict Points (List Points)) :
    Picky (writePointsArrayDict d) (∀ kv ∈ d, Clean kv.1 ∧ ∀ s ∈ kv.2, Clean s) := by
  have := (Picky.free (w := writeVInt d.length) (by simp)).append
    (Picky.forEach (fun kv : Points × List Points => (picky_points kv.1).append (picky_array kv.2)) d)
  simpa [Picky, writePointsArrayDict] using this

theorem forEach_forall₂ {α β : Type} {f : α → W} {g : β → W} {R : α → β → Prop} (h : ∀ a b, R a b → f a = g b) {l : List α}
    {m : List β} (hl : List.Forall₂ R l m) : W.forEach f l = W.forEach g m := by
  induction hl with
  | nil => rfl
  | cons h1 _ ih => simp only [W.forEach, h _ _ h1, ih]

theorem exists_forall₂ {α β : Type} {R : α → β → Prop} {m : List β} (h : ∀ b ∈ m, ∃ a, R a b) : ∃ l, List.Forall₂ R l m := by
  induction m with
  | nil => exact ⟨[], .nil⟩
  | cons b m ih =>
    obtain ⟨l, hl⟩ := ih (fun c hc => h c (List.mem_cons_of_mem _ hc))
    obtain ⟨a, ha⟩ := h b (List.mem_cons_self ..)
    exact ⟨a :: l, .cons ha hl⟩

/-- **C120** (dicts).  A dict of texts is written exactly if all its keys and values have characters only, and then it is read back;
else UnicodeEncodeError is raised. -/
theorem C120_dict (d : Dict Points Points) :
    ((∀ kv ∈ d, Clean kv.1 ∧ Clean kv.2) → (writePointsDict d).err = none ∧ ∃ e : Dict String String,
      List.Forall₂ (fun a b => SpelledBy a.1 b.1 ∧ SpelledBy a.2 b.2) e d ∧
      (StrDictOK e → RoundTrips (writePointsDict d) readStringDict e)) ∧
    (∀ kv ∈ d, ¬ (Clean kv.1 ∧ Clean kv.2) → (writePointsDict d).err = some .unicode) := by
  refine ⟨fun h => ⟨(picky_dict d).1 h, ?_⟩, fun kv hs hc => (picky_dict d).2 fun h => hc (h kv hs)⟩
  obtain ⟨e, he⟩ := exists_forall₂ (m := d) (R := fun (a : String × String) b => SpelledBy a.1 b.1 ∧ SpelledBy a.2 b.2) (by
    intro kv hkv
    obtain ⟨k, hk⟩ := clean_spelled (h kv hkv).1
    obtain ⟨v, hv⟩ := clean_spelled (h kv hkv).2
    exact ⟨(k, v), hk, hv⟩)
  refine ⟨e, he, fun ho => ?_⟩
  have : writePointsDict d = writeStringDict e := by
    unfold writePointsDict writeStringDict
    rw [he.length_eq, ← forEach_forall₂ (f := fun kv : String × String => writeString kv.1 ++ writeString kv.2) (g := fun kv : Points × Points => writePoints kv.1 ++ writePoints kv.2) (fun a b hab => by
      rw [writePoints_spelled hab.1, writePoints_spelled hab.2]) he]
  rw [this]
  exact rt_stringDict ho

example : (writePointsDict [([⟨0x48, by omega⟩], halfPair)]).err = some .unicode :=
  (C120_dict _).2 ([⟨0x48, by omega⟩], halfPair) (by simp) (fun h => halfPair_dirty h.2)

theorem arrayDict_spelled {d : Dict Points (List Points)} (h : ∀ kv ∈ d, Clean kv.1 ∧ ∀ s ∈ kv.2, Clean s) :
    ∃ e : Dict String (List String), List.Forall₂ (fun a b => SpelledBy a.1 b.1 ∧ List.Forall₂ SpelledBy a.2 b.2) e d ∧
      writePointsArrayDict d = writeStringArrayDict e := by
  obtain ⟨e, he⟩ := exists_forall₂ (m := d)
    (R := fun (a : String × List String) b => SpelledBy a.1 b.1 ∧ List.Forall₂ SpelledBy a.2 b.2) (by
    intro kv hkv
    obtain ⟨k, hk⟩ := clean_spelled (h kv hkv).1
    obtain ⟨v, hv⟩ := allClean_spelled (h kv hkv).2
    exact ⟨(k, v), hk, hv⟩)
  refine ⟨e, he, ?_⟩
  unfold writePointsArrayDict writeStringArrayDict
  rw [he.length_eq, ← forEach_forall₂ (f := fun kv : String × List String => writeString kv.1 ++ writeStringArray kv.2)
    (g := fun kv : Points × List Points => writePoints kv.1 ++ writePointsArray kv.2) (fun a b hab => by
      rw [writePoints_spelled hab.1, writePointsArray_spelled hab.2]) he]

/-- **C120** (dicts of arrays).  As for dicts. -/
theorem C120_array_dict (d : Dict Points (List Points)) :
    ((∀ kv ∈ d, Clean kv.1 ∧ ∀ s ∈ kv.2, Clean s) → (writePointsArrayDict d).err = none ∧ ∃ e : Dict String (List String),
      List.Forall₂ (fun a b => SpelledBy a.1 b.1 ∧ List.Forall₂ SpelledBy a.2 b.2) e d ∧
      (StrsDictOK e → RoundTrips (writePointsArrayDict d) readStringArrayDict e)) ∧
    (∀ kv ∈ d, ¬ (Clean kv.1 ∧ ∀ s ∈ kv.2, Clean s) → (writePointsArrayDict d).err = some .unicode) := by
  refine ⟨fun h => ⟨(picky_arrayDict d).1 h, ?_⟩, fun kv hs hc => (picky_arrayDict d).2 fun h => hc (h kv hs)⟩
  obtain ⟨e, he, hw⟩ := arrayDict_spelled h
  exact ⟨e, he, fun ho => by rw [hw]; exact rt_stringArrayDict ho⟩

example : (writePointsArrayDict [([⟨0x48, by omega⟩], [[], halfPair])]).err = some .unicode :=
  (C120_array_dict _).2 ([⟨0x48, by omega⟩], [[], halfPair]) (by simp) (fun h => halfPair_dirty (h.2 halfPair (by simp)))

theorem sendReply_error {σ : Type} (ch : Choice) (s : Host σ) (request : OutboundRequest) {w : W} {e : Err} (h : w.err = some e) :
    ∃ n, s.ids ≤ n ∧ sendReply ch s request w = ({ s with ids := n }, .error e) := by
  unfold sendReply replyTo OutboundResponse.new OutboundMessage.new TcpHeader.new
  dsimp only
  by_cases hi : request.tcp_header.request_id = 0
  · rw [if_pos hi]
    simp only [h]
    exact ⟨s.ids + 1, by omega, rfl⟩
  · rw [if_neg hi]
    simp only [h]
    exact ⟨s.ids, Nat.le_refl _, rfl⟩

/-- **C120** (a handler's response).  If a REST handler's response has a surrogate anywhere in its content type, its headers or the
parameters it consumed, the request is not answered: an exception is raised, and of the host only the extension's own state and the
next id have changed. -/
theorem C120_unanswered {σ H : Type} (reg : Registry H) (run : H → σ → ExtensionRestRequest → σ × Except Err AnyResponse) (ch : Choice)
    (s : Host σ) (request : OutboundRequest) {input rest : Bytes} {req : ExtensionRestRequest} {m : RestMethod} {h : H} {x : σ}
    {r : AnyResponse} (hreq : ExtensionRestRequest.readFrom {} input = .ok (req, rest)) (hm : req.method = some m)
    (hd : reg.dispatch (m.name ++ " " ++ req.path) = some h) (hr : run h s.ext req = (x, .ok r)) (hc : ¬ r.AllClean) :
    ∃ e n, s.ids ≤ n ∧ handleRestAny reg run ch s request input = ({ s with ext := x, ids := n }, .error e) := by
  have hw : ∃ e, r.writeTo.err = some e := by
    rcases he : r.writeTo.err with _ | e
    · exfalso
      unfold AnyResponse.writeTo at he
      simp only [W.err_append] at he
      obtain ⟨_, h1, _, _, h2, h3, _⟩ := he
      apply hc
      have g1 : Clean r.content_type := by
        by_contra hn
        rw [(picky_points _).2 hn] at h1
        cases h1
      have g2 : ∀ kv ∈ r.headers, Clean kv.1 ∧ ∀ s ∈ kv.2, Clean s := by
        by_contra hn
        rw [(picky_arrayDict _).2 hn] at h2
        cases h2
      have g3 : ∀ p ∈ r.consumed_params, Clean p := by
        by_contra hn
        rw [(picky_array _).2 hn] at h3
        cases h3
      exact ⟨g1, fun kv hkv => (g2 kv hkv).1, fun kv hkv => (g2 kv hkv).2, g3⟩
    · exact ⟨e, rfl⟩
  obtain ⟨e, he⟩ := hw
  obtain ⟨n, hn, hs⟩ := sendReply_error ch { s with ext := x } request he
  refine ⟨e, n, hn, ?_⟩
  unfold handleRestAny Registry.handle
  simp only [hreq, hm, hd, hr]
  exact hs

theorem sampleRest_read : ExtensionRestRequest.readFrom {} sampleRest.writeTo.out =
    .ok ({ sampleRest with consumed_params := [], content_consumed := false }, []) := by decide +kernel

example := C120_unanswered sampleExt.registry (fun _ x _ => (x + 1, .ok { status := some .OK, content_type := halfPair })) sampleChoice
  sampleHost (requestIn sampleRestFrame) sampleRest_read (m := .GET) rfl (h := true) (by decide +kernel) rfl
  (fun h => halfPair_dirty h.content_type)

/-- **C120** (a handler's response).  Otherwise the answer is that of the model of text without surrogates, with the same texts. -/
theorem C120_answered {σ H : Type} (reg : Registry H) (run : H → σ → ExtensionRestRequest → σ × Except Err AnyResponse) (ch : Choice)
    (s : Host σ) (request : OutboundRequest) {input rest : Bytes} {req : ExtensionRestRequest} {m : RestMethod} {h : H} {x : σ}
    {r : AnyResponse} (hreq : ExtensionRestRequest.readFrom {} input = .ok (req, rest)) (hm : req.method = some m)
    (hd : reg.dispatch (m.name ++ " " ++ req.path) = some h) (hr : run h s.ext req = (x, .ok r)) (hc : r.AllClean) :
    ∃ t : RestExecuteOnExtensionResponse, t.status = r.status ∧ SpelledBy t.content_type r.content_type ∧ t.content = r.content ∧
      List.Forall₂ (fun a b => SpelledBy a.1 b.1 ∧ List.Forall₂ SpelledBy a.2 b.2) t.headers r.headers ∧
      List.Forall₂ SpelledBy t.consumed_params r.consumed_params ∧ t.content_consumed = r.content_consumed ∧
      handleRestAny reg run ch s request input = sendReply ch { s with ext := x } request t.writeTo := by
  obtain ⟨ct, h1⟩ := clean_spelled hc.content_type
  obtain ⟨hs, h2, w2⟩ := arrayDict_spelled fun kv hkv => ⟨hc.header_names kv hkv, hc.header_values kv hkv⟩
  obtain ⟨ps, h3⟩ := allClean_spelled hc.consumed_params
  refine ⟨⟨r.status, ct, r.content, hs, ps, r.content_consumed⟩, rfl, h1, rfl, h2, h3, rfl, ?_⟩
  unfold handleRestAny Registry.handle
  simp only [hreq, hm, hd, hr]
  unfold AnyResponse.writeTo RestExecuteOnExtensionResponse.writeTo
  rw [writePoints_spelled h1, w2, writePointsArray_spelled h3]

example := C120_answered sampleExt.registry
  (fun _ x _ => (x + 1, .ok { status := some .OK, content_type := [⟨0x20AC, by omega⟩], headers := [([⟨0x48, by omega⟩], [[]])] }))
  sampleChoice sampleHost (requestIn sampleRestFrame) sampleRest_read (m := .GET) rfl (h := true) (by decide +kernel) rfl
  (by constructor <;> simp [Clean, Surrogate])

end Verif
