import Verif.Lemmas.Proto
/-! What the protobuf messages hold after parsing, and what they are parsed from. -/

namespace Verif
open Py StreamInput StreamOutput Spec

theorem last_append (a b : List String) (cur : String) :
    (a ++ b).getLast?.getD cur = b.getLast?.getD (a.getLast?.getD cur) := by
  rw [List.getLast?_append]
  cases b.getLast? <;> rfl

theorem foldl_bind_none {α β : Type} (f : α → β → Option α) (l : List β) :
    l.foldl (fun acc x => acc.bind (fun a => f a x)) none = none := by
  induction l with
  | nil => rfl
  | cons x l ih => exact ih

theorem payloads_cons (n : Nat) (f : PbPart) (fs : List PbPart) :
    payloads n (f :: fs) = payloads n [f] ++ payloads n fs := by
  unfold payloads
  rw [← List.filterMap_append]
  rfl

theorem payloads_append (n : Nat) (fs gs : List PbPart) : payloads n (fs ++ gs) = payloads n fs ++ payloads n gs := by
  unfold payloads; exact List.filterMap_append

theorem varints_append (n : Nat) (fs gs : List PbPart) : varints n (fs ++ gs) = varints n fs ++ varints n gs := by
  unfold varints; exact List.filterMap_append

theorem foreign_append (known : PbPart → Bool) (fs gs : List PbPart) :
    foreign known (fs ++ gs) = foreign known fs ++ foreign known gs := by
  unfold foreign; rw [List.filter_append, List.flatMap_append]

theorem foreign_cons (known : PbPart → Bool) (f : PbPart) (fs : List PbPart) :
    foreign known (f :: fs) = (if known f then [] else f.raw) ++ foreign known fs := by
  unfold foreign
  cases h : known f <;> simp [h]

theorem foreign_all {known : PbPart → Bool} {fs : List PbPart} (h : ∀ f ∈ fs, known f = true) :
    foreign known fs = [] := by
  unfold foreign
  rw [List.filter_eq_nil_iff.2 (fun f hf => by simp [h f hf])]
  rfl

theorem foreign_none {known : PbPart → Bool} {fs : List PbPart} {depth : Nat} {bs : Bytes} (hm : PbMessage depth fs bs)
    (h : ∀ f ∈ fs, known f = false) : foreign known fs = bs := by
  unfold foreign
  rw [List.filter_eq_self.2 (fun f hf => by simp [h f hf]), ← Pb.message_raw hm]

theorem payloads_foreign {n : Nat} {fs : List PbPart} (h : ∀ f ∈ fs, f.isBytes n = false) : payloads n fs = [] := by
  unfold payloads
  rw [List.filterMap_eq_nil_iff]
  intro f hf
  have := h f hf
  obtain ⟨num, p, raw⟩ := f
  cases p <;> simp_all [PbPart.isBytes]

theorem varints_foreign {n : Nat} {fs : List PbPart} (h : ∀ f ∈ fs, f.isVarint n = false) : varints n fs = [] := by
  unfold varints
  rw [List.filterMap_eq_nil_iff]
  intro f hf
  have := h f hf
  obtain ⟨num, p, raw⟩ := f
  cases p <;> simp_all [PbPart.isVarint]

/-! ## ExtensionIdentity -/

namespace ExtensionIdentity

theorem step_name (m : ExtensionIdentity) (b raw : Bytes) :
    step m (Pb.toField ⟨1, .bytes b, raw⟩) = (decodeUtf8? b).map fun s => { m with uniqueId := s } := rfl

theorem step_other (m : ExtensionIdentity) {f : PbPart} (h : identityKnows f = false) :
    step m (Pb.toField f) = some { m with unknown := m.unknown ++ f.raw } := by
  obtain ⟨num, p, raw⟩ := f
  cases p with
  | bytes b =>
    have h1 : num ≠ 1 := by simpa [identityKnows, PbPart.isBytes] using h
    unfold step
    split
    · next e => simp [Pb.toField] at e; exact absurd e.1 h1
    · next e => simp [Pb.toField] at e; rw [e.2.2]
  | _ =>
    unfold step
    split
    all_goals next e => first
      | (simp [Pb.toField, Pb.toVal] at e; done)
      | (simp [Pb.toField, Pb.toVal] at e; rw [e.2.2])

theorem known_bytes {n : Nat} {f : PbPart} (h : f.isBytes n = true) : ∃ b raw, f = ⟨n, .bytes b, raw⟩ := by
  obtain ⟨num, p, raw⟩ := f
  cases p with
  | bytes b =>
    have : num = n := by simpa [PbPart.isBytes] using h
    exact ⟨b, raw, by rw [this]⟩
  | _ => simp [PbPart.isBytes] at h

theorem fold_spec {gs : List PbPart} : ∀ {names : List String}, payloads 1 gs = names.map utf8 → ∀ m : ExtensionIdentity,
    (gs.map Pb.toField).foldl (fun acc f => acc.bind (fun m => step m f)) (some m) =
      some ⟨names.getLast?.getD m.uniqueId, m.unknown ++ foreign identityKnows gs⟩ := by
  induction gs with
  | nil =>
    intro names hn m
    cases names with
    | nil => simp [foreign]
    | cons a l => simp [payloads] at hn
  | cons f gs ih =>
    intro names hn m
    rw [List.map_cons, List.foldl_cons, Option.bind_some, foreign_cons]
    rw [payloads_cons] at hn
    cases hk : identityKnows f with
    | true =>
      obtain ⟨b, raw, rfl⟩ := known_bytes hk
      rw [step_name]
      have e : payloads 1 [⟨1, .bytes b, raw⟩] = [b] := rfl
      rw [e] at hn
      cases names with
      | nil => simp at hn
      | cons a l =>
        simp only [List.map_cons, List.singleton_append, List.cons.injEq] at hn
        obtain ⟨rfl, hn⟩ := hn
        rw [decodeUtf8_utf8, Option.map_some, ih hn]
        simp only [if_true, List.nil_append, Option.some.injEq, mk.injEq, and_true]
        exact (last_append [a] l m.uniqueId).symm
    | false =>
      rw [step_other m hk]
      have e : payloads 1 [f] = [] := payloads_foreign (by simpa [identityKnows] using hk)
      rw [e, List.nil_append] at hn
      rw [ih hn]
      simp

theorem fold_complete {gs : List PbPart} : ∀ {m r : ExtensionIdentity},
    (gs.map Pb.toField).foldl (fun acc f => acc.bind (fun m => step m f)) (some m) = some r →
    ∃ names : List String, payloads 1 gs = names.map utf8 := by
  induction gs with
  | nil => intro m r _; exact ⟨[], rfl⟩
  | cons f gs ih =>
    intro m r h
    rw [List.map_cons, List.foldl_cons, Option.bind_some] at h
    rw [payloads_cons]
    cases hs : step m (Pb.toField f) with
    | none => rw [hs, foldl_bind_none] at h; cases h
    | some m1 =>
      rw [hs] at h
      obtain ⟨names, hn⟩ := ih h
      rw [hn]
      cases hk : identityKnows f with
      | true =>
        obtain ⟨b, raw, rfl⟩ := known_bytes hk
        rw [step_name] at hs
        cases hd : decodeUtf8? b with
        | none => rw [hd] at hs; cases hs
        | some s =>
          rw [decodeUtf8_eq_some] at hd
          subst hd
          exact ⟨s :: names, rfl⟩
      | false =>
        have e : payloads 1 [f] = [] := payloads_foreign (by simpa [identityKnows] using hk)
        exact ⟨names, by rw [e]; rfl⟩

theorem merge_iff (m r : ExtensionIdentity) (bs : Bytes) :
    m.merge bs = some r ↔ ∃ (gs : List PbPart) (names : List String), PbMessage 99 gs bs ∧ payloads 1 gs = names.map utf8 ∧
      r = ⟨names.getLast?.getD m.uniqueId, m.unknown ++ foreign identityKnows gs⟩ := by
  unfold merge
  constructor
  · intro h
    cases hf : Pb.fields 99 bs with
    | none => rw [hf] at h; cases h
    | some l =>
      rw [hf] at h
      obtain ⟨gs, hm, rfl⟩ := (Pb.fields_iff _ _ _).1 hf
      simp only at h
      obtain ⟨names, hn⟩ := fold_complete h
      rw [fold_spec hn, Option.some.injEq] at h
      exact ⟨gs, names, hm, hn, h.symm⟩
  · rintro ⟨gs, names, hm, hn, rfl⟩
    rw [Pb.fields_spec hm]
    exact fold_spec hn m

end ExtensionIdentity

open ExtensionIdentity (known_bytes)

/-! ## The identity as a field of another message -/

/-- What the identity sub-messages `ids`, with these names, make of an identity. -/
def identityAfter (cur : Option ExtensionIdentity) (ids : List (List PbPart)) (names : List String) :
    Option ExtensionIdentity :=
  if ids = [] then cur
  else some ⟨names.getLast?.getD (cur.getD {}).uniqueId, (cur.getD {}).unknown ++ ids.flatMap (foreign identityKnows)⟩

theorem identityAfter_cons {cur : Option ExtensionIdentity} {g : List PbPart} {ids : List (List PbPart)} {n1 n2 : List String}
    (h : ids = [] → n2 = []) :
    identityAfter (some ⟨n1.getLast?.getD (cur.getD {}).uniqueId, (cur.getD {}).unknown ++ foreign identityKnows g⟩) ids n2 =
      identityAfter cur (g :: ids) (n1 ++ n2) := by
  unfold identityAfter
  rw [if_neg (List.cons_ne_nil g ids)]
  by_cases he : ids = []
  · rw [if_pos he, h he]
    subst he
    simp
  · rw [if_neg he]
    simp only [Option.getD_some, last_append, List.flatMap_cons, List.append_assoc]

theorem names_nil {ids : List (List PbPart)} {names : List String} (h : ids.flatMap (payloads 1) = names.map utf8)
    (he : ids = []) : names = [] := by
  subst he
  cases names with
  | nil => rfl
  | cons a l => simp at h

/-! ## RegisterRestActions -/

namespace RegisterRestActions

theorem step_identity (m : RegisterRestActions) (b raw : Bytes) : step m (Pb.toField ⟨1, .bytes b, raw⟩) =
    ((m.identity.getD {}).merge b).map fun u => { m with identity := some u } := rfl

theorem step_action (m : RegisterRestActions) (b raw : Bytes) : step m (Pb.toField ⟨2, .bytes b, raw⟩) =
    (decodeUtf8? b).map fun s => { m with restActions := m.restActions ++ [s] } := rfl

theorem step_deprecated (m : RegisterRestActions) (b raw : Bytes) : step m (Pb.toField ⟨3, .bytes b, raw⟩) =
    (decodeUtf8? b).map fun s => { m with deprecatedRestActions := m.deprecatedRestActions ++ [s] } := rfl

theorem step_other (m : RegisterRestActions) {f : PbPart} (h : actionsKnow f = false) :
    step m (Pb.toField f) = some { m with unknown := m.unknown ++ f.raw } := by
  obtain ⟨num, p, raw⟩ := f
  cases p with
  | bytes b =>
    have h1 : (num ≠ 1 ∧ num ≠ 2) ∧ num ≠ 3 := by simpa [actionsKnow, PbPart.isBytes] using h
    unfold step
    split
    · next e => simp [Pb.toField] at e; exact absurd e.1 h1.1.1
    · next e => simp [Pb.toField] at e; exact absurd e.1 h1.1.2
    · next e => simp [Pb.toField] at e; exact absurd e.1 h1.2
    · next e => simp [Pb.toField] at e; rw [e.2.2]
  | _ =>
    unfold step
    split
    all_goals next e => first
      | (simp [Pb.toField, Pb.toVal] at e; done)
      | (simp [Pb.toField, Pb.toVal] at e; rw [e.2.2])

theorem fold_spec {fs : List PbPart} : ∀ {ids : List (List PbPart)} {names actions deprecated : List String},
    List.Forall₂ (PbMessage 99) ids (payloads 1 fs) → ids.flatMap (payloads 1) = names.map utf8 →
    payloads 2 fs = actions.map utf8 → payloads 3 fs = deprecated.map utf8 → ∀ m : RegisterRestActions,
    (fs.map Pb.toField).foldl (fun acc f => acc.bind (fun m => step m f)) (some m) =
      some ⟨identityAfter m.identity ids names, m.restActions ++ actions, m.deprecatedRestActions ++ deprecated,
        m.unknown ++ foreign actionsKnow fs⟩ := by
  induction fs with
  | nil =>
    intro ids names actions deprecated hi hn ha hd m
    cases hi
    cases names <;> cases actions <;> cases deprecated <;> simp_all [payloads, foreign, identityAfter]
  | cons f fs ih =>
    intro ids names actions deprecated hi hn ha hd m
    rw [List.map_cons, List.foldl_cons, Option.bind_some, foreign_cons]
    rw [payloads_cons] at hi ha hd
    cases hk : actionsKnow f with
    | false =>
      have h3 : (f.isBytes 1 = false ∧ f.isBytes 2 = false) ∧ f.isBytes 3 = false := by simpa [actionsKnow] using hk
      have e : ∀ n, n = 1 ∨ n = 2 ∨ n = 3 → payloads n [f] = [] := by
        intro n hn
        apply payloads_foreign
        rcases hn with rfl | rfl | rfl <;> simp [h3]
      rw [e 1 (by simp), List.nil_append] at hi
      rw [e 2 (by simp), List.nil_append] at ha
      rw [e 3 (by simp), List.nil_append] at hd
      rw [step_other m hk, ih hi hn ha hd]
      simp
    | true =>
      have h3 : (f.isBytes 1 = true ∨ f.isBytes 2 = true) ∨ f.isBytes 3 = true := by simpa [actionsKnow] using hk
      rcases h3 with (h3 | h3) | h3
      · obtain ⟨b, raw, rfl⟩ := known_bytes h3
        have e1 : payloads 1 [⟨1, .bytes b, raw⟩] = [b] := rfl
        have e2 : payloads 2 [⟨1, .bytes b, raw⟩] = [] := rfl
        have e3 : payloads 3 [⟨1, .bytes b, raw⟩] = [] := rfl
        rw [e1] at hi
        rw [e2] at ha
        rw [e3] at hd
        cases hi with
        | cons hg hi' =>
          rename_i g ids'
          simp only [List.flatMap_cons] at hn
          obtain ⟨n1, n2, rfl, hn1, hn2⟩ := List.map_eq_append_iff.1 hn.symm
          rw [step_identity, (ExtensionIdentity.merge_iff _ _ _).2 ⟨g, n1, hg, hn1.symm, rfl⟩, Option.map_some,
            ih hi' hn2.symm ha hd]
          simp only [if_true, List.nil_append]
          rw [identityAfter_cons (names_nil hn2.symm)]
      · obtain ⟨b, raw, rfl⟩ := known_bytes h3
        have e1 : payloads 1 [⟨2, .bytes b, raw⟩] = [] := rfl
        have e2 : payloads 2 [⟨2, .bytes b, raw⟩] = [b] := rfl
        have e3 : payloads 3 [⟨2, .bytes b, raw⟩] = [] := rfl
        rw [e1] at hi
        rw [e2] at ha
        rw [e3] at hd
        cases actions with
        | nil => simp at ha
        | cons a l =>
          simp only [List.map_cons, List.singleton_append, List.cons.injEq] at ha
          obtain ⟨rfl, ha⟩ := ha
          rw [step_action, decodeUtf8_utf8, Option.map_some, ih hi hn ha hd]
          simp
      · obtain ⟨b, raw, rfl⟩ := known_bytes h3
        have e1 : payloads 1 [⟨3, .bytes b, raw⟩] = [] := rfl
        have e2 : payloads 2 [⟨3, .bytes b, raw⟩] = [] := rfl
        have e3 : payloads 3 [⟨3, .bytes b, raw⟩] = [b] := rfl
        rw [e1] at hi
        rw [e2] at ha
        rw [e3] at hd
        cases deprecated with
        | nil => simp at hd
        | cons a l =>
          simp only [List.map_cons, List.singleton_append, List.cons.injEq] at hd
          obtain ⟨rfl, hd⟩ := hd
          rw [step_deprecated, decodeUtf8_utf8, Option.map_some, ih hi hn ha hd]
          simp

theorem fold_complete {fs : List PbPart} : ∀ {m r : RegisterRestActions},
    (fs.map Pb.toField).foldl (fun acc f => acc.bind (fun m => step m f)) (some m) = some r →
    ∃ (ids : List (List PbPart)) (names actions deprecated : List String),
      List.Forall₂ (PbMessage 99) ids (payloads 1 fs) ∧ ids.flatMap (payloads 1) = names.map utf8 ∧
      payloads 2 fs = actions.map utf8 ∧ payloads 3 fs = deprecated.map utf8 := by
  induction fs with
  | nil => intro m r _; exact ⟨[], [], [], [], .nil, rfl, rfl, rfl⟩
  | cons f fs ih =>
    intro m r h
    rw [List.map_cons, List.foldl_cons, Option.bind_some] at h
    simp only [payloads_cons _ f fs]
    cases hs : step m (Pb.toField f) with
    | none => rw [hs, foldl_bind_none] at h; cases h
    | some m1 =>
      rw [hs] at h
      obtain ⟨ids, names, actions, deprecated, hi, hn, ha, hd⟩ := ih h
      cases hk : actionsKnow f with
      | false =>
        have h3 : (f.isBytes 1 = false ∧ f.isBytes 2 = false) ∧ f.isBytes 3 = false := by simpa [actionsKnow] using hk
        have e : ∀ n, n = 1 ∨ n = 2 ∨ n = 3 → payloads n [f] = [] := by
          intro n hn
          apply payloads_foreign
          rcases hn with rfl | rfl | rfl <;> simp [h3]
        exact ⟨ids, names, actions, deprecated, by rw [e 1 (by simp)]; exact hi, hn, by rw [e 2 (by simp)]; exact ha,
          by rw [e 3 (by simp)]; exact hd⟩
      | true =>
        have h3 : (f.isBytes 1 = true ∨ f.isBytes 2 = true) ∨ f.isBytes 3 = true := by simpa [actionsKnow] using hk
        rcases h3 with (h3 | h3) | h3
        · obtain ⟨b, raw, rfl⟩ := known_bytes h3
          rw [step_identity] at hs
          cases hm : (m.identity.getD {}).merge b with
          | none => rw [hm] at hs; cases hs
          | some u =>
            obtain ⟨g, n1, hg, hn1, -⟩ := (ExtensionIdentity.merge_iff _ _ _).1 hm
            exact ⟨g :: ids, n1 ++ names, actions, deprecated, .cons hg hi, by simp [hn1, hn], ha, hd⟩
        · obtain ⟨b, raw, rfl⟩ := known_bytes h3
          rw [step_action] at hs
          cases hdec : decodeUtf8? b with
          | none => rw [hdec] at hs; cases hs
          | some s =>
            rw [decodeUtf8_eq_some] at hdec
            subst hdec
            exact ⟨ids, names, s :: actions, deprecated, hi, hn, by rw [ha]; rfl, hd⟩
        · obtain ⟨b, raw, rfl⟩ := known_bytes h3
          rw [step_deprecated] at hs
          cases hdec : decodeUtf8? b with
          | none => rw [hdec] at hs; cases hs
          | some s =>
            rw [decodeUtf8_eq_some] at hdec
            subst hdec
            exact ⟨ids, names, actions, s :: deprecated, hi, hn, ha, by rw [hd]; rfl⟩

/-- Parsing succeeds exactly on the well-formed messages whose strings are UTF-8, with this result. -/
theorem parse_iff (bs : Bytes) (r : RegisterRestActions) :
    parse bs = some r ↔ ∃ (fs : List PbPart) (ids : List (List PbPart)) (names actions deprecated : List String),
      PbMessage 100 fs bs ∧ List.Forall₂ (PbMessage 99) ids (payloads 1 fs) ∧
      ids.flatMap (payloads 1) = names.map utf8 ∧
      payloads 2 fs = actions.map utf8 ∧ payloads 3 fs = deprecated.map utf8 ∧
      r = ⟨identityAfter none ids names, actions, deprecated, foreign actionsKnow fs⟩ := by
  unfold parse
  constructor
  · intro h
    cases hf : Pb.fields 100 bs with
    | none => rw [hf] at h; cases h
    | some l =>
      rw [hf] at h
      obtain ⟨fs, hm, rfl⟩ := (Pb.fields_iff _ _ _).1 hf
      simp only at h
      obtain ⟨ids, names, actions, deprecated, hi, hn, ha, hd⟩ := fold_complete h
      rw [fold_spec hi hn ha hd, Option.some.injEq] at h
      exact ⟨fs, ids, names, actions, deprecated, hm, hi, hn, ha, hd, h.symm⟩
  · rintro ⟨fs, ids, names, actions, deprecated, hm, hi, hn, ha, hd, rfl⟩
    rw [Pb.fields_spec hm]
    exact fold_spec hi hn ha hd {}

end RegisterRestActions

/-! ## ExtensionRequest -/

theorem enum_int32 (n : Nat) : Spec.IsInt32 n (ExtensionRequest.enumOfVarint n) := by
  unfold Spec.IsInt32 ExtensionRequest.enumOfVarint
  split <;> refine ⟨by omega, by omega, by omega⟩

namespace ExtensionRequest

theorem enum_roundtrip (i : Int) (h1 : -(2 ^ 31) ≤ i) (h2 : i < 2 ^ 31) : enumOfVarint (enumVarint i) = i := by
  unfold enumOfVarint enumVarint
  split <;> omega

theorem step_identity (m : ExtensionRequest) (b raw : Bytes) : step m (Pb.toField ⟨1, .bytes b, raw⟩) =
    ((m.identity.getD {}).merge b).map fun u => { m with identity := some u } := rfl

theorem step_type (m : ExtensionRequest) (n : Nat) (raw : Bytes) : step m (Pb.toField ⟨2, .varint n, raw⟩) =
    some { m with requestType := enumOfVarint n } := rfl

theorem step_other (m : ExtensionRequest) {f : PbPart} (h : requestKnows f = false) :
    step m (Pb.toField f) = some { m with unknown := m.unknown ++ f.raw } := by
  obtain ⟨num, p, raw⟩ := f
  cases p with
  | bytes b =>
    have h1 : num ≠ 1 := by simpa [requestKnows, PbPart.isBytes, PbPart.isVarint] using h
    unfold step
    split
    · next e => simp [Pb.toField] at e; exact absurd e.1 h1
    · next e => simp [Pb.toField, Pb.toVal] at e
    · next e => simp [Pb.toField] at e; rw [e.2.2]
  | varint n =>
    have h1 : num ≠ 2 := by simpa [requestKnows, PbPart.isBytes, PbPart.isVarint] using h
    unfold step
    split
    · next e => simp [Pb.toField, Pb.toVal] at e
    · next e => simp [Pb.toField] at e; exact absurd e.1 h1
    · next e => simp [Pb.toField] at e; rw [e.2.2]
  | _ =>
    unfold step
    split
    all_goals next e => first
      | (simp [Pb.toField, Pb.toVal] at e; done)
      | (simp [Pb.toField, Pb.toVal] at e; rw [e.2.2])

theorem known_varint {n : Nat} {f : PbPart} (h : f.isVarint n = true) : ∃ v raw, f = ⟨n, .varint v, raw⟩ := by
  obtain ⟨num, p, raw⟩ := f
  cases p with
  | varint v =>
    have : num = n := by simpa [PbPart.isVarint] using h
    exact ⟨v, raw, by rw [this]⟩
  | _ => simp [PbPart.isVarint] at h

theorem fold_spec {fs : List PbPart} : ∀ {ids : List (List PbPart)} {names : List String},
    List.Forall₂ (PbMessage 99) ids (payloads 1 fs) → ids.flatMap (payloads 1) = names.map utf8 → ∀ m : ExtensionRequest,
    (fs.map Pb.toField).foldl (fun acc f => acc.bind (fun m => step m f)) (some m) =
      some ⟨identityAfter m.identity ids names, ((varints 2 fs).getLast?.map enumOfVarint).getD m.requestType,
        m.unknown ++ foreign requestKnows fs⟩ := by
  induction fs with
  | nil =>
    intro ids names hi hn m
    cases hi
    cases names <;> simp_all [varints, foreign, identityAfter]
  | cons f fs ih =>
    intro ids names hi hn m
    rw [List.map_cons, List.foldl_cons, Option.bind_some, foreign_cons]
    rw [payloads_cons] at hi
    have hv : varints 2 (f :: fs) = varints 2 [f] ++ varints 2 fs := varints_append 2 [f] fs
    rw [hv]
    cases hk : requestKnows f with
    | false =>
      have h3 : f.isBytes 1 = false ∧ f.isVarint 2 = false := by simpa [requestKnows] using hk
      have e1 : payloads 1 [f] = [] := payloads_foreign (by simpa using h3.1)
      have e2 : varints 2 [f] = [] := varints_foreign (by simpa using h3.2)
      rw [e1, List.nil_append] at hi
      rw [e2, List.nil_append, step_other m hk, ih hi hn]
      simp
    | true =>
      have h3 : f.isBytes 1 = true ∨ f.isVarint 2 = true := by simpa [requestKnows] using hk
      rcases h3 with h3 | h3
      · obtain ⟨b, raw, rfl⟩ := known_bytes h3
        have e1 : payloads 1 [⟨1, .bytes b, raw⟩] = [b] := rfl
        have e2 : varints 2 [⟨1, .bytes b, raw⟩] = [] := rfl
        rw [e1] at hi
        rw [e2, List.nil_append]
        cases hi with
        | cons hg hi' =>
          rename_i g ids'
          simp only [List.flatMap_cons] at hn
          obtain ⟨n1, n2, rfl, hn1, hn2⟩ := List.map_eq_append_iff.1 hn.symm
          rw [step_identity, (ExtensionIdentity.merge_iff _ _ _).2 ⟨g, n1, hg, hn1.symm, rfl⟩, Option.map_some,
            ih hi' hn2.symm]
          simp only [if_true, List.nil_append]
          rw [identityAfter_cons (names_nil hn2.symm)]
      · obtain ⟨n, raw, rfl⟩ := known_varint h3
        have e1 : payloads 1 [⟨2, .varint n, raw⟩] = [] := rfl
        have e2 : varints 2 [⟨2, .varint n, raw⟩] = [n] := rfl
        rw [e1] at hi
        rw [e2, step_type, ih hi hn, List.getLast?_append]
        cases (varints 2 fs).getLast? <;> simp

theorem fold_complete {fs : List PbPart} : ∀ {m r : ExtensionRequest},
    (fs.map Pb.toField).foldl (fun acc f => acc.bind (fun m => step m f)) (some m) = some r →
    ∃ (ids : List (List PbPart)) (names : List String),
      List.Forall₂ (PbMessage 99) ids (payloads 1 fs) ∧ ids.flatMap (payloads 1) = names.map utf8 := by
  induction fs with
  | nil => intro m r _; exact ⟨[], [], .nil, rfl⟩
  | cons f fs ih =>
    intro m r h
    rw [List.map_cons, List.foldl_cons, Option.bind_some] at h
    rw [payloads_cons]
    cases hs : step m (Pb.toField f) with
    | none => rw [hs, foldl_bind_none] at h; cases h
    | some m1 =>
      rw [hs] at h
      obtain ⟨ids, names, hi, hn⟩ := ih h
      cases hk : f.isBytes 1 with
      | false =>
        have e1 : payloads 1 [f] = [] := payloads_foreign (by simpa using hk)
        exact ⟨ids, names, by rw [e1]; exact hi, hn⟩
      | true =>
        obtain ⟨b, raw, rfl⟩ := known_bytes hk
        rw [step_identity] at hs
        cases hm : (m.identity.getD {}).merge b with
        | none => rw [hm] at hs; cases hs
        | some u =>
          obtain ⟨g, n1, hg, hn1, -⟩ := (ExtensionIdentity.merge_iff _ _ _).1 hm
          exact ⟨g :: ids, n1 ++ names, .cons hg hi, by simp [hn1, hn]⟩

/-- Parsing succeeds exactly on the well-formed messages whose names are UTF-8, with this result. -/
theorem parse_iff (bs : Bytes) (r : ExtensionRequest) :
    parse bs = some r ↔ ∃ (fs : List PbPart) (ids : List (List PbPart)) (names : List String),
      PbMessage 100 fs bs ∧ List.Forall₂ (PbMessage 99) ids (payloads 1 fs) ∧
      ids.flatMap (payloads 1) = names.map utf8 ∧
      r = ⟨identityAfter none ids names, ((varints 2 fs).getLast?.map enumOfVarint).getD 0,
        foreign requestKnows fs⟩ := by
  unfold parse
  constructor
  · intro h
    cases hf : Pb.fields 100 bs with
    | none => rw [hf] at h; cases h
    | some l =>
      rw [hf] at h
      obtain ⟨fs, hm, rfl⟩ := (Pb.fields_iff _ _ _).1 hf
      simp only at h
      obtain ⟨ids, names, hi, hn⟩ := fold_complete h
      rw [fold_spec hi hn, Option.some.injEq] at h
      exact ⟨fs, ids, names, hm, hi, hn, h.symm⟩
  · rintro ⟨fs, ids, names, hm, hi, hn, rfl⟩
    rw [Pb.fields_spec hm]
    exact fold_spec hi hn {}

end ExtensionRequest

end Verif
