import Verif.Lemmas.Messages
import Verif.Model.Protobuf
import Verif.Spec.Protobuf
/-! The parser of the protobuf wire format accepts exactly the messages of `Spec/Protobuf.lean`. -/

namespace Verif
open Py StreamInput StreamOutput

namespace Pb
open Spec

theorem readVarint_spec : ∀ (fuel : Nat) (bs : Bytes), bs ≠ [] → bs.length ≤ fuel →
    (∀ k (h : k < bs.length), 128 ≤ bs[k].toNat ↔ k + 1 < bs.length) → ∀ rest : Bytes,
    readVarint fuel (bs ++ rest) = some (Spec.varintValue bs, rest) := by
  intro fuel
  induction fuel with
  | zero => intro bs h1 h2; cases bs <;> simp_all
  | succ k ih =>
    intro bs h1 h2 h3 rest
    cases bs with
    | nil => exact absurd rfl h1
    | cons b bs =>
      have h0 := h3 0 (by simp)
      simp only [List.getElem_cons_zero, List.length_cons] at h0
      simp only [List.cons_append, readVarint, Spec.varintValue]
      cases bs with
      | nil =>
        simp only [List.length_nil] at h0
        rw [if_pos (by omega)]
        simp [Spec.varintValue]; omega
      | cons c cs =>
        simp only [List.length_cons] at h0
        rw [if_neg (by omega), ih (c :: cs) (by simp) (by simpa using h2) ?_ rest]
        intro j hj
        have := h3 (j + 1) (by simpa using hj)
        simp only [List.getElem_cons_succ, List.length_cons] at this
        simp only [List.length_cons]
        omega

theorem readVarint_complete : ∀ (fuel : Nat) (bs rest : Bytes) (n : Nat), readVarint fuel bs = some (n, rest) →
    ∃ v, bs = v ++ rest ∧ PbVarint fuel v n := by
  intro fuel
  induction fuel with
  | zero => intro bs rest n h; cases bs <;> simp [readVarint] at h
  | succ k ih =>
    intro bs rest n h
    cases bs with
    | nil => simp [readVarint] at h
    | cons b bs =>
      simp only [readVarint] at h
      split at h
      · next hb =>
        simp only [Option.some.injEq, Prod.mk.injEq] at h
        obtain ⟨rfl, rfl⟩ := h
        refine ⟨[b], rfl, by simp, by simp, by simp [varintValue]; omega, ?_⟩
        intro j hj
        simp only [List.length_singleton] at hj
        obtain rfl : j = 0 := by omega
        simp; omega
      · next hb =>
        cases hr : readVarint k bs with
        | none => rw [hr] at h; cases h
        | some p =>
          obtain ⟨v, r⟩ := p
          rw [hr] at h
          simp only [Option.some.injEq, Prod.mk.injEq] at h
          obtain ⟨rfl, rfl⟩ := h
          obtain ⟨w, rfl, h1, h2, h3, h4⟩ := ih bs r v hr
          refine ⟨b :: w, rfl, by simp, by simpa using h2, by simp only [varintValue, h3], ?_⟩
          intro j hj
          have hpos := List.length_pos_iff.2 h1
          cases j with
          | zero => simp only [List.getElem_cons_zero, List.length_cons]; omega
          | succ j =>
            simp only [List.length_cons] at hj
            have := h4 j (by omega)
            simp only [List.getElem_cons_succ, List.length_cons]
            omega

theorem readVarint_iff (limit : Nat) (bs rest : Bytes) (n : Nat) :
    readVarint limit bs = some (n, rest) ↔ ∃ v, bs = v ++ rest ∧ PbVarint limit v n := by
  constructor
  · exact readVarint_complete limit bs rest n
  · rintro ⟨v, rfl, h⟩
    rw [readVarint_spec limit v h.nonempty h.short h.continuation, h.value]

theorem readVarint_pb {limit : Nat} {bs : Bytes} {n : Nat} (h : PbVarint limit bs n) (rest : Bytes) :
    readVarint limit (bs ++ rest) = some (n, rest) := (readVarint_iff _ _ _ _).2 ⟨bs, rfl, h⟩

theorem readTag_pb {num wire : Nat} {bs : Bytes} (h : PbTag num wire bs) (hw : wire < 8) (rest : Bytes) :
    readTag (bs ++ rest) = some (num * 8 + wire, rest) := by
  obtain ⟨h1, h2, h3⟩ := h
  unfold readTag
  rw [readVarint_pb h3]
  simp only
  rw [if_pos (by omega)]

theorem readTag_complete {bs rest : Bytes} {tag : Nat} (h : readTag bs = some (tag, rest)) :
    ∃ t, bs = t ++ rest ∧ PbTag (tag / 8) (tag % 8) t := by
  unfold readTag at h
  cases hr : readVarint 5 bs with
  | none => rw [hr] at h; cases h
  | some p =>
    obtain ⟨v, r⟩ := p
    rw [hr] at h
    simp only at h
    split at h
    · next hb =>
      simp only [Option.some.injEq, Prod.mk.injEq] at h
      obtain ⟨rfl, rfl⟩ := h
      obtain ⟨w, rfl, hw⟩ := readVarint_complete _ _ _ _ hr
      exact ⟨w, rfl, by omega, by omega, by rw [show v / 8 * 8 + v % 8 = v by omega]; exact hw⟩
    · cases h

/-- What the model keeps of a payload. -/
def toVal : PbPayload → Val
  | .varint n => .int n
  | .bytes b => .bytes b
  | _ => .other

/-- The wire type of a plain payload. -/
def wireOf : PbPayload → Nat
  | .varint _ => 0
  | .eight _ => 1
  | .bytes _ => 2
  | .four _ => 5
  | .group _ => 3

theorem plain_tag {num : Nat} {p : PbPayload} {b : Bytes} (h : PbPlain num p b) :
    ∃ tag v, b = tag ++ v ∧ PbTag num (wireOf p) tag ∧ wireOf p ≠ 3 ∧ wireOf p ≠ 4 ∧ wireOf p < 8 ∧
      ∀ rest, readPlain (wireOf p) (v ++ rest) = some (toVal p, rest) := by
  cases h with
  | varint h1 h2 =>
    refine ⟨_, _, rfl, h1, by simp [wireOf], by simp [wireOf], by simp [wireOf], fun rest => ?_⟩
    simp only [wireOf, readPlain, if_true]
    rw [readVarint_pb h2]
    rfl
  | eight h1 h2 =>
    refine ⟨_, _, rfl, h1, by simp [wireOf], by simp [wireOf], by simp [wireOf], fun rest => ?_⟩
    simp only [wireOf, readPlain]
    rw [if_neg (by decide), if_pos trivial, if_pos (by simp only [List.length_append]; omega), ← h2, List.drop_left]
    rfl
  | bytes h1 h2 h3 =>
    refine ⟨_, _, rfl, h1, by simp [wireOf], by simp [wireOf], by simp [wireOf], fun rest => ?_⟩
    simp only [wireOf, readPlain, readLen, List.append_assoc]
    rw [if_neg (by decide), if_neg (by decide), if_pos trivial, readVarint_pb h2]
    simp only [List.length_append]
    rw [if_pos ⟨h3, by omega⟩]
    simp [toVal]
  | four h1 h2 =>
    refine ⟨_, _, rfl, h1, by simp [wireOf], by simp [wireOf], by simp [wireOf], fun rest => ?_⟩
    simp only [wireOf, readPlain]
    rw [if_neg (by decide), if_neg (by decide), if_neg (by decide), if_pos trivial,
      if_pos (by simp only [List.length_append]; omega), ← h2, List.drop_left]
    rfl

theorem readPlain_complete {num wire : Nat} {tag bs rest : Bytes} {v : Val} (ht : PbTag num wire tag)
    (h : readPlain wire bs = some (v, rest)) :
    ∃ p w, bs = w ++ rest ∧ PbPlain num p (tag ++ w) ∧ toVal p = v := by
  unfold readPlain at h
  split at h
  · next e =>
    subst e
    cases hr : readVarint 10 bs with
    | none => rw [hr] at h; cases h
    | some p =>
      obtain ⟨n, r⟩ := p
      rw [hr] at h
      simp only [Option.some.injEq, Prod.mk.injEq] at h
      obtain ⟨rfl, rfl⟩ := h
      obtain ⟨w, rfl, hw⟩ := readVarint_complete _ _ _ _ hr
      exact ⟨_, w, rfl, .varint ht hw, rfl⟩
  · split at h
    · next e =>
      subst e
      split at h
      · next hl =>
        simp only [Option.some.injEq, Prod.mk.injEq] at h
        obtain ⟨rfl, rfl⟩ := h
        exact ⟨_, bs.take 8, (List.take_append_drop 8 bs).symm, .eight ht (by simp; omega), rfl⟩
      · cases h
    · split at h
      · next e =>
        subst e
        unfold readLen at h
        cases hr : readVarint 5 bs with
        | none => rw [hr] at h; cases h
        | some p =>
          obtain ⟨n, r⟩ := p
          rw [hr] at h
          simp only at h
          by_cases hc : n < 2 ^ 31 ∧ n ≤ r.length
          · rw [if_pos hc] at h
            simp only [Option.some.injEq, Prod.mk.injEq] at h
            obtain ⟨rfl, rfl⟩ := h
            obtain ⟨w, rfl, hw⟩ := readVarint_complete _ _ _ _ hr
            have hn : (r.take n).length = n := by simp; omega
            refine ⟨.bytes (r.take n), w ++ r.take n, by simp, .bytes ht (by rw [hn]; exact hw) (by rw [hn]; exact hc.1), rfl⟩
          · rw [if_neg hc] at h; cases h
      · split at h
        · next e =>
          subst e
          split at h
          · next hl =>
            simp only [Option.some.injEq, Prod.mk.injEq] at h
            obtain ⟨rfl, rfl⟩ := h
            exact ⟨_, bs.take 4, (List.take_append_drop 4 bs).symm, .four ht (by simp; omega), rfl⟩
          · cases h
        · cases h

theorem tag_length {num wire : Nat} {t : Bytes} (h : PbTag num wire t) : 0 < t.length :=
  List.length_pos_iff.2 h.2.2.nonempty

/-- Skipping over the fields of a message in the innermost group. -/
theorem skip_message {d : Nat} {fs : List PbPart} {bs : Bytes} (h : PbMessage d fs bs) :
    ∀ (depth num : Nat) (up : List Nat), up.length + 1 + d ≤ depth → ∀ (rest : Bytes) (fuel : Nat),
      bs.length + rest.length ≤ fuel →
      ∃ fuel', rest.length ≤ fuel' ∧
        skipGroups depth fuel (num :: up) (bs ++ rest) = skipGroups depth fuel' (num :: up) rest := by
  induction h with
  | nil => intro depth num up _ rest fuel hf; exact ⟨fuel, by simpa using hf, rfl⟩
  | @plain d n p b fs bs hp _ ih =>
    intro depth num up hd rest fuel hf
    obtain ⟨tag, v, rfl, ht, w3, w4, w8, hv⟩ := plain_tag hp
    have := tag_length ht
    simp only [List.length_append] at hf
    obtain ⟨k, rfl⟩ : ∃ k, fuel = k + 1 := ⟨fuel - 1, by omega⟩
    obtain ⟨f', hf', he⟩ := ih depth num up hd rest k (by omega)
    refine ⟨f', hf', ?_⟩
    rw [← he, skipGroups]
    simp only [List.append_assoc]
    rw [readTag_pb ht w8]
    simp only
    rw [if_neg (by omega), if_neg (by omega), show (n * 8 + wireOf p) % 8 = wireOf p by omega, hv]
  | @group d n start stop gs inner fs bs h1 _ h2 _ ih1 ih2 =>
    intro depth num up hd rest fuel hf
    have := tag_length h1
    have := tag_length h2
    simp only [List.length_append] at hf
    obtain ⟨k, rfl⟩ : ∃ k, fuel = k + 1 := ⟨fuel - 1, by omega⟩
    obtain ⟨f1, hf1, he1⟩ := ih1 depth n (num :: up) (by simp only [List.length_cons]; omega) (stop ++ (bs ++ rest)) k
      (by simp only [List.length_append]; omega)
    simp only [List.length_append] at hf1
    obtain ⟨j, rfl⟩ : ∃ j, f1 = j + 1 := ⟨f1 - 1, by omega⟩
    obtain ⟨f2, hf2, he2⟩ := ih2 depth num up hd rest j (by omega)
    refine ⟨f2, hf2, ?_⟩
    rw [← he2, skipGroups]
    simp only [List.append_assoc]
    rw [readTag_pb h1 (by decide)]
    simp only
    rw [if_neg (by omega), if_pos (by omega), if_pos (by omega), show (n * 8 + 3) / 8 = n by omega, he1, skipGroups,
      readTag_pb h2 (by decide)]
    simp only
    rw [if_pos (by omega), if_pos (by omega)]

theorem skip_close {d num depth : Nat} {gs : List PbPart} {inner stop : Bytes} (h : PbMessage d gs inner)
    (hs : PbTag num 4 stop) (hd : 1 + d ≤ depth) (rest : Bytes) :
    skipGroups depth (inner ++ (stop ++ rest)).length [num] (inner ++ (stop ++ rest)) = some rest := by
  obtain ⟨f, hf, he⟩ := skip_message h depth num [] (by simpa using hd) (stop ++ rest) (inner ++ (stop ++ rest)).length
    (by simp)
  have := tag_length hs
  simp only [List.length_append] at hf
  obtain ⟨k, rfl⟩ : ∃ k, f = k + 1 := ⟨f - 1, by omega⟩
  rw [he, skipGroups, readTag_pb hs (by decide)]
  simp only
  rw [if_pos (by omega), if_pos (by omega)]
  cases k <;> rfl

/-- The ends of the open groups, innermost first, each after the fields still in it. -/
inductive Closes (depth : Nat) : List Nat → Bytes → Prop
  | nil : Closes depth [] []
  | cons {num up fs m stop bs} : PbMessage (depth - (up.length + 1)) fs m → PbTag num 4 stop → Closes depth up bs →
      Closes depth (num :: up) (m ++ (stop ++ bs))

theorem skip_complete (depth : Nat) : ∀ (fuel : Nat) (st : List Nat) (bs rest : Bytes), st.length ≤ depth →
    skipGroups depth fuel st bs = some rest → ∃ raw, bs = raw ++ rest ∧ Closes depth st raw := by
  intro fuel
  induction fuel with
  | zero =>
    intro st bs rest _ h
    cases st with
    | nil => simp only [skipGroups, Option.some.injEq] at h; exact ⟨[], by simp [h], .nil⟩
    | cons n up => simp [skipGroups] at h
  | succ k ih =>
    intro st bs rest hd h
    cases st with
    | nil => simp only [skipGroups, Option.some.injEq] at h; exact ⟨[], by simp [h], .nil⟩
    | cons num up =>
      simp only [List.length_cons] at hd
      rw [skipGroups] at h
      cases ht : readTag bs with
      | none => rw [ht] at h; cases h
      | some p =>
        obtain ⟨tag, r⟩ := p
        rw [ht] at h
        simp only at h
        obtain ⟨t, rfl, hpt⟩ := readTag_complete ht
        split at h
        · next e4 =>
          split at h
          · next en =>
            obtain ⟨raw, rfl, hc⟩ := ih up r rest (by omega) h
            rw [e4, en] at hpt
            exact ⟨t ++ raw, by simp, .cons (m := []) .nil hpt hc⟩
          · cases h
        · split at h
          · next e3 =>
            split at h
            · next hl =>
              obtain ⟨raw, rfl, hc⟩ := ih _ r rest (by simp only [List.length_cons]; omega) h
              cases hc with
              | cons hm hs hc =>
                cases hc with
                | cons hm' hs' hc' =>
                  rw [e3] at hpt
                  obtain ⟨d, hdd⟩ : ∃ d, depth - (up.length + 1) = d + 1 := ⟨depth - (up.length + 1) - 1, by omega⟩
                  rw [hdd] at hm'
                  rw [show depth - ((num :: up).length + 1) = d by simp only [List.length_cons]; omega] at hm
                  have := Closes.cons (depth := depth) (num := num) (up := up) (by rw [hdd]; exact .group hpt hm hs hm') hs' hc'
                  refine ⟨_, ?_, this⟩
                  simp
            · cases h
          · cases hv : readPlain (tag % 8) r with
            | none => rw [hv] at h; cases h
            | some q =>
              obtain ⟨v, r'⟩ := q
              rw [hv] at h
              simp only at h
              obtain ⟨p, w, rfl, hp, -⟩ := readPlain_complete hpt hv
              obtain ⟨raw, rfl, hc⟩ := ih _ r' rest (by simpa using hd) h
              cases hc with
              | cons hm hs hc =>
                exact ⟨_, by simp, .cons (.plain hp hm) hs hc⟩

/-- One field and what follows. -/
theorem readField_iff (depth : Nat) (bs rest : Bytes) (num : Nat) (v : Val) :
    readField depth bs = some ((num, v), rest) ↔
      ∃ p raw, bs = raw ++ rest ∧ PbMessage depth [⟨num, p, raw⟩] raw ∧ toVal p = v := by
  constructor
  · intro h
    unfold readField at h
    cases ht : readTag bs with
    | none => rw [ht] at h; cases h
    | some p =>
      obtain ⟨tag, r⟩ := p
      rw [ht] at h
      simp only at h
      obtain ⟨t, rfl, hpt⟩ := readTag_complete ht
      split at h
      · next e3 =>
        split at h
        · cases h
        · next hd =>
          cases hs : skipGroups depth r.length [tag / 8] r with
          | none => rw [hs] at h; cases h
          | some r' =>
            rw [hs] at h
            simp only [Option.some.injEq, Prod.mk.injEq] at h
            obtain ⟨⟨rfl, rfl⟩, rfl⟩ := h
            obtain ⟨raw, rfl, hc⟩ := skip_complete depth _ [tag / 8] r r' (by simp; omega) hs
            cases hc with
            | cons hm hstop hc =>
              cases hc
              rw [e3] at hpt
              obtain ⟨d, rfl⟩ : ∃ d, depth = d + 1 := ⟨depth - 1, by omega⟩
              rw [show d + 1 - (([] : List Nat).length + 1) = d by simp] at hm
              have := PbMessage.group hpt hm hstop PbMessage.nil
              rw [List.append_nil] at this
              exact ⟨_, _, by simp, this, rfl⟩
      · next e3 =>
        cases hv : readPlain (tag % 8) r with
        | none => rw [hv] at h; cases h
        | some q =>
          obtain ⟨v, r'⟩ := q
          rw [hv] at h
          simp only [Option.some.injEq, Prod.mk.injEq] at h
          obtain ⟨⟨rfl, rfl⟩, rfl⟩ := h
          obtain ⟨p, w, rfl, hp, he⟩ := readPlain_complete hpt hv
          have := PbMessage.plain (depth := depth) hp PbMessage.nil
          rw [List.append_nil] at this
          exact ⟨p, t ++ w, by simp, this, he⟩
  · rintro ⟨p, raw, rfl, h, rfl⟩
    unfold readField
    generalize hf : [(⟨num, p, raw⟩ : PbPart)] = fs at h
    generalize hr : raw = raw' at h
    cases h with
    | nil => cases hf
    | plain hp hnil =>
      cases hf
      cases hnil
      clear hr
      obtain ⟨tag, v, rfl, ht, w3, w4, w8, hv⟩ := plain_tag hp
      simp only [List.append_assoc]
      rw [readTag_pb ht w8]
      simp only
      rw [if_neg (by omega), show (num * 8 + wireOf p) % 8 = wireOf p by omega, hv]
      simp only
      rw [show (num * 8 + wireOf p) / 8 = num by omega]
      rfl
    | group h1 h2 h3 hnil =>
      cases hf
      cases hnil
      clear hr
      simp only [List.append_assoc]
      rw [readTag_pb h1 (by decide)]
      simp only
      rw [if_pos (by omega), if_neg (by omega), show (num * 8 + 3) / 8 = num by omega,
        skip_close h2 h3 (by omega)]
      rfl

/-- What the model keeps of a field. -/
def toField (f : PbPart) : Field := ⟨f.num, toVal f.payload, f.raw⟩

theorem message_cons {depth : Nat} {f : PbPart} {fs : List PbPart} {bs : Bytes} (h : PbMessage depth (f :: fs) bs) :
    ∃ r, bs = f.raw ++ r ∧ f.raw ≠ [] ∧ PbMessage depth [f] f.raw ∧ PbMessage depth fs r := by
  cases h with
  | plain hp ht =>
    refine ⟨_, rfl, ?_, ?_, ht⟩
    · obtain ⟨tag, v, rfl, ht, _⟩ := plain_tag hp
      simp [ht.2.2.nonempty]
    · have := PbMessage.plain (depth := depth) hp .nil
      rwa [List.append_nil] at this
  | group h1 h2 h3 ht =>
    refine ⟨_, rfl, by simp [h1.2.2.nonempty], ?_, ht⟩
    have := PbMessage.group h1 h2 h3 .nil
    rwa [List.append_nil] at this

theorem message_append {depth : Nat} {fs gs : List PbPart} {a b : Bytes} (h : PbMessage depth fs a)
    (h' : PbMessage depth gs b) : PbMessage depth (fs ++ gs) (a ++ b) := by
  induction h with
  | nil => exact h'
  | plain hp _ ih => rw [List.append_assoc]; exact .plain hp (ih h')
  | group h1 h2 h3 _ _ ih2 => rw [List.append_assoc]; exact .group h1 h2 h3 (ih2 h')

theorem message_raw {depth : Nat} {fs : List PbPart} {bs : Bytes} (h : PbMessage depth fs bs) :
    bs = fs.flatMap (·.raw) := by
  induction h with
  | nil => rfl
  | plain _ _ ih => rw [List.flatMap_cons, ← ih]
  | group _ _ _ _ _ ih => rw [List.flatMap_cons, ← ih]

theorem message_filter {depth : Nat} {fs : List PbPart} (known : PbPart → Bool) : ∀ {bs : Bytes},
    PbMessage depth fs bs → PbMessage depth (fs.filter known) ((fs.filter known).flatMap (·.raw)) := by
  induction fs with
  | nil => intro bs _; exact .nil
  | cons f fs ih =>
    intro bs h
    obtain ⟨r, rfl, -, h1, h2⟩ := message_cons h
    by_cases hk : known f
    · rw [List.filter_cons_of_pos hk, List.flatMap_cons]
      exact message_append h1 (ih h2)
    · rw [List.filter_cons_of_neg hk]
      exact ih h2

theorem readFields_spec {depth : Nat} {fs : List PbPart} : ∀ {bs : Bytes}, PbMessage depth fs bs →
    ∀ fuel, bs.length ≤ fuel → readFields depth fuel bs = some (fs.map toField) := by
  induction fs with
  | nil => intro bs h fuel _; cases h; cases fuel <;> rfl
  | cons f fs ih =>
    intro bs h fuel hf
    obtain ⟨r, rfl, hne, h1, h2⟩ := message_cons h
    have hpos : 0 < f.raw.length := List.length_pos_iff.2 hne
    simp only [List.length_append] at hf
    obtain ⟨k, rfl⟩ : ∃ k, fuel = k + 1 := ⟨fuel - 1, by omega⟩
    obtain ⟨x, xs, hx⟩ : ∃ x xs, f.raw ++ r = x :: xs := by
      cases hr : f.raw with
      | nil => exact absurd hr hne
      | cons x xs => exact ⟨x, _, rfl⟩
    have hrd : readField depth (f.raw ++ r) = some ((f.num, toVal f.payload), r) :=
      (readField_iff _ _ _ _ _).2 ⟨f.payload, f.raw, rfl, h1, rfl⟩
    rw [hx, readFields, ← hx, hrd]
    · simp only
      rw [ih h2 k (by omega)]
      simp [toField]
    · simp

theorem readFields_complete (depth : Nat) : ∀ (fuel : Nat) (bs : Bytes) (l : List Field),
    readFields depth fuel bs = some l → ∃ fs, PbMessage depth fs bs ∧ l = fs.map toField := by
  intro fuel
  induction fuel with
  | zero =>
    intro bs l h
    cases bs with
    | nil => simp only [readFields, Option.some.injEq] at h; exact ⟨[], .nil, by simp [← h]⟩
    | cons x xs => simp [readFields] at h
  | succ k ih =>
    intro bs l h
    cases bs with
    | nil => simp only [readFields, Option.some.injEq] at h; exact ⟨[], .nil, by simp [← h]⟩
    | cons x xs =>
      rw [readFields] at h
      · cases hr : readField depth (x :: xs) with
        | none => rw [hr] at h; cases h
        | some q =>
          obtain ⟨⟨num, v⟩, rest⟩ := q
          rw [hr] at h
          simp only at h
          cases hs : readFields depth k rest with
          | none => rw [hs] at h; cases h
          | some l' =>
            rw [hs] at h
            simp only [Option.some.injEq] at h
            obtain ⟨p, raw, hb, hm, rfl⟩ := (readField_iff _ _ _ _ _).1 hr
            obtain ⟨fs, hfs, rfl⟩ := ih rest l' hs
            refine ⟨⟨num, p, raw⟩ :: fs, ?_, ?_⟩
            · rw [hb]; exact message_append hm hfs
            · rw [← h, hb]
              simp [toField]
      · simp

/-- The fields the model reads are exactly those of a well-formed message. -/
theorem fields_iff (depth : Nat) (bs : Bytes) (l : List Field) :
    fields depth bs = some l ↔ ∃ fs, PbMessage depth fs bs ∧ l = fs.map toField := by
  constructor
  · exact readFields_complete depth _ bs l
  · rintro ⟨fs, h, rfl⟩
    exact readFields_spec h _ (le_refl _)

theorem fields_spec {depth : Nat} {fs : List PbPart} {bs : Bytes} (h : PbMessage depth fs bs) :
    fields depth bs = some (fs.map toField) := readFields_spec h _ (le_refl _)

end Pb

end Verif
