import Verif.Spec.Headers
import Verif.Props.Samples
/-!
# C102: the headers of a response
-/

namespace Verif
open Py StreamInput StreamOutput

theorem list_getElem?_concat {α : Type} (l : List α) (x : α) (i : Nat) :
    (l ++ [x])[i]? = if i = l.length then some x else l[i]? := by
  by_cases h : i = l.length
  · rw [if_pos h, h]; simp
  · rw [if_neg h]
    rcases Nat.lt_or_ge i l.length with h' | h'
    · exact List.getElem?_append_left h'
    · rw [List.getElem?_append_right h', List.getElem?_eq_none h', List.getElem?_eq_none]
      simp; omega

/-- What is known after some operations. -/
structure HeapInv (ops : List HeaderOp) (h : ResponseHeap) : Prop where
  made : ∀ i : Nat, (h.responses[i]? = some DictRef.default ↔ (constructedWith ops)[i]? = some none) ∧
    ((∃ d, (constructedWith ops)[i]? = some (some d)) ↔ ∃ n, h.responses[i]? = some (DictRef.own n))
  len : h.responses.length = (constructedWith ops).length ∧ (expectedHeaders ops).length = (constructedWith ops).length
  inj : ∀ i j n : Nat, h.responses[i]? = some (DictRef.own n) → h.responses[j]? = some (DictRef.own n) → i = j
  lt : ∀ i n : Nat, h.responses[i]? = some (DictRef.own n) → n < h.own.length
  own : ∀ i n : Nat, h.responses[i]? = some (DictRef.own n) → h.own[n]? = (expectedHeaders ops)[i]?

theorem constructedWith_concat (ops : List HeaderOp) (op : HeaderOp) :
    constructedWith (ops ++ [op]) = constructedWith ops ++ (match op with | .construct d => [d] | .set .. => []) := by
  unfold constructedWith
  rw [List.filterMap_append]
  cases op <;> rfl

theorem expectedHeaders_concat (ops : List HeaderOp) (op : HeaderOp) :
    expectedHeaders (ops ++ [op]) = (match op with
      | .construct d => expectedHeaders ops ++ [d.getD []]
      | .set i k v => (expectedHeaders ops).modify i fun d => d.set k v) := by
  unfold expectedHeaders
  rw [List.foldl_append]
  rfl

theorem run_concat (ops : List HeaderOp) (op : HeaderOp) (h : ResponseHeap) :
    h.run (ops ++ [op]) = (h.run ops).step op := by
  unfold ResponseHeap.run
  rw [List.foldl_append]
  rfl

theorem heapInv (ops : List HeaderOp) : HeapInv ops (ResponseHeap.run {} ops) := by
  induction ops using List.reverseRecOn with
  | nil => constructor <;> simp [ResponseHeap.run, constructedWith, expectedHeaders]
  | append_singleton ops op ih =>
    rw [run_concat]
    generalize ResponseHeap.run {} ops = h at ih
    obtain ⟨i1, ⟨i2, i2'⟩, i3, i4, i5⟩ := ih
    cases op with
    | construct d =>
      cases d with
      | none =>
        refine ⟨?_, ?_, ?_, ?_, ?_⟩
        all_goals simp only [ResponseHeap.step, constructedWith_concat, expectedHeaders_concat]
        · intro i
          rw [list_getElem?_concat, list_getElem?_concat, i2]
          by_cases hi : i = (constructedWith ops).length
          · simp [hi]
          · simp only [if_neg hi]; exact i1 i
        · simp [i2, i2']
        · intro i j n
          rw [list_getElem?_concat, list_getElem?_concat]
          by_cases hi : i = h.responses.length
          · simp [hi]
          · by_cases hj : j = h.responses.length
            · simp [hj]
            · simp only [if_neg hi, if_neg hj]; exact i3 i j n
        · intro i n
          rw [list_getElem?_concat]
          by_cases hi : i = h.responses.length
          · simp [hi]
          · simp only [if_neg hi]; exact i4 i n
        · intro i n
          rw [list_getElem?_concat, list_getElem?_concat, i2', ← i2]
          by_cases hi : i = h.responses.length
          · simp [hi]
          · simp only [if_neg hi]; exact i5 i n
      | some d =>
        refine ⟨?_, ?_, ?_, ?_, ?_⟩
        all_goals simp only [ResponseHeap.step, constructedWith_concat, expectedHeaders_concat]
        · intro i
          rw [list_getElem?_concat, list_getElem?_concat, i2]
          by_cases hi : i = (constructedWith ops).length
          · simp [hi]
          · simp only [if_neg hi]; exact i1 i
        · simp [i2, i2']
        · intro i j n
          rw [list_getElem?_concat, list_getElem?_concat]
          by_cases hi : i = h.responses.length
          · by_cases hj : j = h.responses.length
            · intros; omega
            · simp only [if_pos hi, if_neg hj, Option.some.injEq, DictRef.own.injEq]
              intro e1 e2
              have := i4 j n e2
              omega
          · by_cases hj : j = h.responses.length
            · simp only [if_neg hi, if_pos hj, Option.some.injEq, DictRef.own.injEq]
              intro e1 e2
              have := i4 i n e1
              omega
            · simp only [if_neg hi, if_neg hj]; exact i3 i j n
        · intro i n
          rw [list_getElem?_concat]
          by_cases hi : i = h.responses.length
          · simp only [if_pos hi, Option.some.injEq, DictRef.own.injEq, List.length_append]
            intro e; simp; omega
          · simp only [if_neg hi, List.length_append]
            intro e
            have := i4 i n e
            omega
        · intro i n
          rw [list_getElem?_concat, list_getElem?_concat, list_getElem?_concat, i2', ← i2]
          by_cases hi : i = h.responses.length
          · simp only [if_pos hi, Option.some.injEq, DictRef.own.injEq]
            intro e; simp [e.symm]
          · simp only [if_neg hi]
            intro e
            have := i4 i n e
            rw [if_neg (by omega)]
            exact i5 i n e
    | set i k v =>
      have hc : constructedWith (ops ++ [.set i k v]) = constructedWith ops := by
        rw [constructedWith_concat]; simp
      cases hr : h.responses[i]? with
      | none =>
        have he : h.step (.set i k v) = h := by unfold ResponseHeap.step; simp only [hr]
        rw [he]
        have hl : h.responses.length ≤ i := List.getElem?_eq_none_iff.1 hr
        have hx : expectedHeaders (ops ++ [.set i k v]) = expectedHeaders ops := by
          rw [expectedHeaders_concat]
          exact List.modify_eq_self (by omega)
        refine ⟨?_, ?_, i3, i4, ?_⟩
        · rw [hc]; exact i1
        · rw [hc, hx]; exact ⟨i2, i2'⟩
        · rw [hx]; exact i5
      | some r =>
        cases r with
        | default =>
          have he : h.step (.set i k v) = { h with default := h.default.set k v } := by
            unfold ResponseHeap.step; simp only [hr]; rfl
          rw [he]
          refine ⟨?_, ?_, i3, i4, ?_⟩
          · rw [hc]; exact i1
          · rw [hc, expectedHeaders_concat]; exact ⟨i2, by simpa using i2'⟩
          · intro j n hj
            rw [expectedHeaders_concat]
            simp only
            have hne : i ≠ j := by
              rintro rfl
              simp only at hj
              rw [hr] at hj; cases hj
            rw [List.getElem?_modify_ne _ _ hne]
            exact i5 j n hj
        | own m =>
          have he : h.step (.set i k v) = { h with own := h.own.modify m fun d => d.set k v } := by
            unfold ResponseHeap.step; simp only [hr]; rfl
          rw [he]
          refine ⟨?_, ?_, i3, ?_, ?_⟩
          · rw [hc]; exact i1
          · rw [hc, expectedHeaders_concat]; exact ⟨i2, by simpa using i2'⟩
          · intro j n hj
            simpa using i4 j n hj
          · intro j n hj
            rw [expectedHeaders_concat]
            simp only
            by_cases hij : i = j
            · subst hij
              simp only at hj
              rw [hr] at hj
              cases hj
              rw [List.getElem?_modify_eq, List.getElem?_modify_eq, i5 i m hr]
            · have hmn : m ≠ n := by
                rintro rfl
                exact hij (i3 i j m hr hj)
              rw [List.getElem?_modify_ne _ _ hij, List.getElem?_modify_ne _ _ hmn]
              exact i5 j n hj

/-- C102, the part that holds: a response constructed with a dict of its own has exactly the headers expected of
it, whatever is done with all other responses. -/
theorem C102_own_partial (ops : List HeaderOp) (i : Nat) (d : Headers)
    (h : (constructedWith ops)[i]? = some (some d)) :
    (ResponseHeap.run {} ops).headers i = (expectedHeaders ops)[i]? := by
  obtain ⟨i1, ⟨i2, i2'⟩, i3, i4, i5⟩ := heapInv ops
  generalize ResponseHeap.run {} ops = hp at *
  obtain ⟨n, hn⟩ := (i1 i).2.1 ⟨d, h⟩
  unfold ResponseHeap.headers
  rw [hn, Option.map_some, ← i5 i n hn]
  unfold ResponseHeap.dict
  simp only
  rw [List.getElem?_eq_getElem (i4 i n hn)]
  rfl

theorem default_leaks (ops : List HeaderOp) : ∀ (h : ResponseHeap) (made : List (Option Headers)),
    (∀ i : Nat, h.responses[i]? = some DictRef.default ↔ made[i]? = some none) → h.responses.length = made.length →
    (h.run ops).default = (leakedHeaders made ops).foldl (fun d kv => d.set kv.1 kv.2) h.default := by
  induction ops with
  | nil => intro h made _ _; rfl
  | cons op ops ih =>
    intro h made hm hl
    show ((h.step op).run ops).default = _
    cases op with
    | construct d =>
      have key : ∀ r : DictRef, (r = DictRef.default ↔ d = none) → ∀ i : Nat, (h.responses ++ [r])[i]? = some DictRef.default ↔ (made ++ [d])[i]? = some none := by
        intro r hr i
        rw [list_getElem?_concat, list_getElem?_concat, hl]
        by_cases hi : i = made.length
        · simp only [if_pos hi, Option.some.injEq]; exact hr
        · simp only [if_neg hi]; exact hm i
      cases d with
      | none => exact ih (h.step (.construct none)) (made ++ [none]) (key DictRef.default (by simp)) (by simp [ResponseHeap.step, hl])
      | some d =>
        exact ih (h.step (.construct (some d))) (made ++ [some d]) (key (DictRef.own h.own.length) (by simp))
          (by simp [ResponseHeap.step, hl])
    | set i k v =>
      unfold leakedHeaders
      cases hr : h.responses[i]? with
      | none =>
        have he : h.step (.set i k v) = h := by unfold ResponseHeap.step; simp only [hr]
        have : ¬ made[i]? = some none := by rw [← hm i, hr]; simp
        rw [he, if_neg this]
        exact ih h made hm hl
      | some r =>
        cases r with
        | default =>
          have he : h.step (.set i k v) = { h with default := h.default.set k v } := by
            unfold ResponseHeap.step; simp only [hr]; rfl
          rw [he, if_pos ((hm i).1 hr), List.foldl_cons]
          exact ih { h with default := h.default.set k v } made hm hl
        | own m =>
          have he : h.step (.set i k v) = { h with own := h.own.modify m fun d => d.set k v } := by
            unfold ResponseHeap.step; simp only [hr]; rfl
          have : ¬ made[i]? = some none := by rw [← hm i, hr]; simp
          rw [he, if_neg this]
          exact ih { h with own := h.own.modify m fun d => d.set k v } made hm hl

/-- C102 is violated, always: a response constructed without headers has all headers that were ever set on any
response constructed without headers, earlier or later, and no others. -/
theorem C102_violated (ops : List HeaderOp) (i : Nat) (h : (constructedWith ops)[i]? = some none) :
    (ResponseHeap.run {} ops).headers i = some (Dict.ofItems (leakedHeaders [] ops)) := by
  have h1 := ((heapInv ops).made i).1.2 h
  have h2 := default_leaks ops ({} : ResponseHeap) [] (by simp) rfl
  unfold ResponseHeap.headers
  rw [h1, Option.map_some]
  exact congrArg some h2

example := C102_violated [.construct none, .set 0 "k" ["v"]] 0 rfl

/-- The same for two responses and one header: what is set on the one is on the other, and it is not what one expects. -/
example : (ResponseHeap.run {} [.construct none, .construct none, .set 0 "Set-Cookie" ["c"]]).headers 1 =
      some [("Set-Cookie", ["c"])] ∧
    (expectedHeaders [.construct none, .construct none, .set 0 "Set-Cookie" ["c"]])[1]? = some [] := by decide +kernel

/-- A response with headers of its own, beside others. -/
example : (constructedWith [.construct none, .construct (some [("a", [])]), .set 0 "k" ["c"], .set 1 "b" []])[1]? =
    some (some [("a", [])]) := by decide +kernel

/-- The answer with the cookie can be written, and is not long. -/
theorem cookie_facts (ch : Choice) {c : String} (hc : StrOK c) (hlen : (utf8 c).length < 2 ^ 31 - 1000) :
    ResponseOK ⟨some .OK, [], TEXT_CONTENT_TYPE, [("Set-Cookie", [c])], [], false⟩ ∧
    (executeResponse ch ⟨some .OK, [], TEXT_CONTENT_TYPE, [("Set-Cookie", [c])], [], false⟩).writeTo.out.length
      ≤ 200 + (utf8 c).length := by
  have hord : ch.ho.order [] = [] := order_single _ _ (by simp)
  constructor
  · refine ⟨by simp, by show (0 : Nat) ≤ 2 ^ 31; omega, by show StrOK TEXT_CONTENT_TYPE; decide +kernel, ?_, by show StrsOK []; decide +kernel,
      by show ([] : List String).Nodup; simp⟩
    refine ⟨?_, ?_, ?_⟩
    · show (List.map Prod.fst [("Set-Cookie", [c])]).Nodup
      simp
    · show (1 : Nat) < 2 ^ 35
      omega
    · intro kv hkv
      rw [List.mem_singleton.1 hkv]
      refine ⟨by show StrOK "Set-Cookie"; decide +kernel, by show (1 : Nat) ≤ 2 ^ 31; omega, fun x hx => ?_⟩
      rw [List.mem_singleton.1 hx]
      exact hc
  · unfold executeResponse
    simp only [hord]
    have step : ∀ {a b : W} {m n : Nat}, a.out.length ≤ m → b.out.length ≤ n → (a ++ b).out.length ≤ m + n :=
      fun h1 h2 => (append_length_le _ _).trans (Nat.add_le_add h1 h2)
    have h1 : (writeEnumOpt (some RestStatus.OK)).out.length ≤ 2 := by
      show (writeVInt (PyEnum.value RestStatus.OK)).out.length ≤ 2
      decide +kernel
    have h2 : (writeString TEXT_CONTENT_TYPE).out.length ≤ 40 := by decide +kernel
    have h3 : (writeVInt (([] : Bytes).length : Nat)).out.length ≤ 5 := by decide +kernel
    have h4 : (W.emit []).out.length ≤ 0 := le_refl _
    have h5 : (writeStringArrayDict [("Set-Cookie", [c])]).out.length ≤ 40 + (utf8 c).length := by
      have g1 : (writeVInt (1 : Nat)).out.length ≤ 1 := by decide +kernel
      have g2 : (writeString "Set-Cookie").out.length ≤ 20 := by decide +kernel
      have g3 : (writeString c).out.length ≤ 5 + (utf8 c).length := by
        rw [writeString_length]
        have := (varint_length_le 4 (utf8 c).length).2 (by omega)
        omega
      have g0 : W.nil.out.length ≤ 0 := le_refl _
      have := step g1 (step (step g2 (step g1 (step g3 g0))) g0)
      exact this.trans (by omega)
    have h6 : (writeStringArray []).out.length ≤ 10 := by decide +kernel
    have h7 : (writeBoolean false).out.length ≤ 1 := by decide +kernel
    have := step h1 (step h2 (step h3 (step h4 (step h5 (step h6 h7)))))
    exact this.trans (by omega)

/-- C102 is violated end to end: with an extension whose handler for one route sets a cookie on its own response, the answer to
the next request for another route, from whomever, carries that cookie. -/
theorem C102_end_to_end_violated (env : Ext ResponseHeap Bool) (hrun : env.run = cookieRun) (ch1 ch2 : Choice)
    (s : Host ResponseHeap) (hs : s.ext = {}) {frame1 frame2 : Bytes} {ctx1 ctx2 : ThreadContext}
    {f1 f2 : List String} {id1 id2 : Int} {hs1 cp1 hs2 cp2 : Bool} {r1 r2 : ExtensionRestRequest} {m1 m2 : RestMethod}
    (h1 : RequestFrame frame1 ctx1 f1 r1.writeTo "internal:extensions/restexecuteonextensiontaction" id1 hs1 cp1)
    (hr1 : RequestOK r1) (hm1 : r1.method = some m1)
    (hroute1 : env.registry.dispatch (m1.name ++ " " ++ r1.path) = some true)
    (h2 : RequestFrame frame2 ctx2 f2 r2.writeTo "internal:extensions/restexecuteonextensiontaction" id2 hs2 cp2)
    (hr2 : RequestOK r2) (hm2 : r2.method = some m2)
    (hroute2 : env.registry.dispatch (m2.name ++ " " ++ r2.path) = some false)
    (hfits : ctx1.size + (utf8 r1.uri).length < 2 ^ 31 - 1000 ∧ ctx2.size + (utf8 r1.uri).length < 2 ^ 31 - 1000) :
    ∃ s1 out1 s2 out2 body d, onInput env ch1 s frame1 = (s1, .ok (some out1)) ∧
      onInput env ch2 s1 frame2 = (s2, .ok (some out2)) ∧ ReplyIs out2 id2 hs2 cp2 ctx2 body ∧
      RestExecuteOnExtensionResponse.readFrom body = .ok (d, []) ∧ d.headers = [("Set-Cookie", [r1.uri])] := by
  have hlen : (utf8 r1.uri).length < 2 ^ 31 - 1000 := by omega
  have key : ∀ ch : Choice, ResponseOK ⟨some .OK, [], TEXT_CONTENT_TYPE, [("Set-Cookie", [r1.uri])], [], false⟩ ∧
      (executeResponse ch ⟨some .OK, [], TEXT_CONTENT_TYPE, [("Set-Cookie", [r1.uri])], [], false⟩).writeTo.out.length
        ≤ 200 + (utf8 r1.uri).length := fun ch => cookie_facts ch (by have := hr1.uri; exact this) hlen
  have hx : cookieRun true s.ext { r1 with consumed_params := [], content_consumed := false } =
      ({ default := [("Set-Cookie", [r1.uri])], own := [], responses := [DictRef.default] },
        .ok ⟨some .OK, [], TEXT_CONTENT_TYPE, [("Set-Cookie", [r1.uri])], [], false⟩) := by
    rw [hs]; rfl
  have hy : cookieRun false { default := [("Set-Cookie", [r1.uri])], own := [], responses := [DictRef.default] }
        { r2 with consumed_params := [], content_consumed := false } =
      ({ default := [("Set-Cookie", [r1.uri])], own := [], responses := [DictRef.default, DictRef.default] },
        .ok ⟨some .OK, [], TEXT_CONTENT_TYPE, [("Set-Cookie", [r1.uri])], [], false⟩) := rfl
  obtain ⟨out, body, d, o1, -⟩ := C38_rest env ch1 s h1 hr1 hm1 hroute1 (by rw [hrun]; exact hx) (key ch1).1
    (by have := (key ch1).2; omega) []
  obtain ⟨out2, body2, d2, p1, p2, p3, -, -, -, p4, -⟩ := C38_rest env ch2
    { s with ids := s.ids + 2, ext := { default := [("Set-Cookie", [r1.uri])], own := [], responses := [DictRef.default] } }
    h2 hr2 hm2 hroute2 (by rw [hrun]; exact hy) (key ch2).1 (by have := (key ch2).2; omega) []
  rw [List.append_nil] at o1 p1
  exact ⟨_, out, _, out2, body2, d2, o1, p1, p2, p3, p4⟩

/-- The extension with the two handlers: `GET /hello/{name}` sets the cookie, `GET /bye` answers with nothing. -/
def cookieExt : Ext ResponseHeap Bool where
  name := "cookies"
  interfaces := ["Extension", "ActionExtension"]
  registry := (Registry.build ⟨[], []⟩ [(true, [⟨.GET, "/hello/{name}", "hi"⟩]), (false, [⟨.GET, "/bye", "bye"⟩])]).toOption.getD ⟨[], []⟩
  run := cookieRun
  depth := 10

/-- A request for `GET /bye`, and its frame. -/
def byeRest : ExtensionRestRequest := { sampleRest with uri := "/bye", path := "/bye", params := [] }
def byeFrame : Bytes := sampleFrame byeRest.writeTo "internal:extensions/restexecuteonextensiontaction" 13

/-- The two requests meet the hypotheses. -/
example : RequestFrame sampleRestFrame sampleCtx ["f"] sampleRest.writeTo
      "internal:extensions/restexecuteonextensiontaction" 12 false false ∧ RequestOK sampleRest ∧
    cookieExt.registry.dispatch ("GET" ++ " " ++ sampleRest.path) = some true ∧
    RequestFrame byeFrame sampleCtx ["f"] byeRest.writeTo
      "internal:extensions/restexecuteonextensiontaction" 13 false false ∧ RequestOK byeRest ∧
    cookieExt.registry.dispatch ("GET" ++ " " ++ byeRest.path) = some false ∧
    sampleCtx.size + (utf8 sampleRest.uri).length < 2 ^ 31 - 1000 :=
  ⟨sampleRestFrame_ok, sampleRest_ok, by decide +kernel,
    ⟨sampleOrder, Version.new 2070099, 0, 0, _, rfl, rfl, by decide +kernel, by decide +kernel, by decide +kernel,
      by decide +kernel, by decide +kernel, by decide +kernel⟩,
    by constructor <;> decide +kernel, by decide +kernel, by decide +kernel⟩

example := C102_own_partial [.construct none, .construct (some [("a", [])]), .set 0 "k" ["c"], .set 1 "b" []] 1 [("a", [])]
  (by decide +kernel)

end Verif
