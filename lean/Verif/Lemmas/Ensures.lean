import Verif.Lemmas.Message
/-! What a value that was read from a stream satisfies, whatever the bytes. -/

namespace Verif
open Py StreamInput StreamOutput

/-- Whatever `r` returns satisfies `P`. -/
def Reader.Ensures {α : Type} (r : Reader α) (P : α → Prop) : Prop :=
  ∀ bs a rest, r bs = .ok (a, rest) → P a

namespace Reader.Ensures

theorem bind {α β : Type} {r : Reader α} {f : α → Reader β} {P : α → Prop} {Q : β → Prop}
    (h : r.Ensures P) (h' : ∀ a, P a → (f a).Ensures Q) : (r >>= f).Ensures Q := by
  intro bs b rest hb
  obtain ⟨a, mid, h1, h2⟩ := Reader.bind_eq_ok.1 hb
  exact h' a (h _ _ _ h1) _ _ _ h2

theorem bind' {α β : Type} {r : Reader α} {f : α → Reader β} {Q : β → Prop}
    (h' : ∀ a, (f a).Ensures Q) : (r >>= f).Ensures Q :=
  bind (P := fun _ => True) (fun _ _ _ _ => trivial) fun a _ => h' a

theorem pure {α : Type} {a : α} {P : α → Prop} (h : P a) : (Pure.pure a : Reader α).Ensures P := by
  intro bs b rest hb
  have : (Except.ok (a, bs) : Except Err (α × Bytes)) = .ok (b, rest) := hb
  cases this; exact h

theorem throw {α : Type} {e : Err} {P : α → Prop} : (Reader.throw e : Reader α).Ensures P := by
  intro bs b rest hb; cases hb

theorem ite {α : Type} {c : Prop} [Decidable c] {r r' : Reader α} {P : α → Prop}
    (h1 : c → r.Ensures P) (h2 : ¬ c → r'.Ensures P) : (if c then r else r').Ensures P := by
  split
  · exact h1 ‹_›
  · exact h2 ‹_›

theorem times {α : Type} {r : Reader α} {P : α → Prop} (h : r.Ensures P) (n : Nat) :
    (r.times n).Ensures fun l => l.length = n ∧ ∀ a ∈ l, P a := by
  induction n with
  | zero => exact pure ⟨rfl, by simp⟩
  | succ n ih =>
    refine bind h fun a ha => bind ih fun as has => pure ⟨by simp [has.1], ?_⟩
    intro x hx
    rcases List.mem_cons.1 hx with rfl | hx
    · exact ha
    · exact has.2 x hx

theorem mono {α : Type} {r : Reader α} {P Q : α → Prop} (h : r.Ensures P) (hPQ : ∀ a, P a → Q a) :
    r.Ensures Q := fun bs a rest hb => hPQ a (h bs a rest hb)

end Reader.Ensures

open Reader (Ensures)

theorem ens_byte : readByte.Ensures fun b => -(2 ^ 7) ≤ b ∧ b < 2 ^ 7 := by
  intro bs a rest h
  cases bs with
  | nil => rw [readByte_nil] at h; cases h; decide
  | cons b bs =>
    rw [readByte_cons] at h; cases h
    have := b.toNat_lt
    unfold sbyte; split <;> omega

theorem ens_vstep {sh i : Nat} {k : Nat → Reader Int} {P : Int → Prop} (hi : i < 2 ^ sh)
    (hP : ∀ j : Nat, j < 2 ^ (sh + 7) → P j) (hk : ∀ j : Nat, j < 2 ^ (sh + 7) → (k j).Ensures P) :
    (vstep sh i k).Ensures P := by
  have e7 : 2 ^ (sh + 7) = 2 ^ sh * 128 := Nat.pow_add 2 sh 7
  intro bs a rest h
  cases bs with
  | nil =>
    rw [vstep_nil] at h; cases h
    exact hP i (by omega)
  | cons b bs =>
    rw [vstep_cons k b bs hi] at h
    have hb : b.toNat % 128 < 128 := Nat.mod_lt _ (by decide)
    have hj : i + b.toNat % 128 * 2 ^ sh < 2 ^ (sh + 7) := by
      have : b.toNat % 128 * 2 ^ sh ≤ 127 * 2 ^ sh := Nat.mul_le_mul_right _ (by omega)
      omega
    by_cases hc : b.toNat < 128
    · simp only [hc, if_pos] at h
      have hmod : b.toNat % 128 = b.toNat := Nat.mod_eq_of_lt hc
      cases h
      first
        | exact hP _ hj
        | (rw [hmod] at hj; exact hP _ hj)
    · simp only [hc, if_false] at h
      exact hk _ hj _ _ _ h

theorem ens_vint : readVInt.Ensures fun n => 0 ≤ n ∧ n < 2 ^ 35 := by
  rw [readVInt_steps]
  refine ens_vstep (by decide) (fun j hj => by omega) fun j hj => ?_
  refine ens_vstep hj (fun j hj => by omega) fun j hj => ?_
  refine ens_vstep hj (fun j hj => by omega) fun j hj => ?_
  refine ens_vstep hj (fun j hj => by omega) fun j hj => ?_
  intro bs a rest h
  cases bs with
  | nil =>
    rw [vintLast, Reader.bind_ok readByte_nil] at h
    have h1 : low7 0 = 0 := by decide +kernel
    have h2 : more 0 = false := by decide +kernel
    simp only [h1, h2, Bool.false_eq_true, if_false, Nat.zero_shiftLeft, Nat.or_zero] at h
    have : (Except.ok ((j : Int), []) : Except Err (Int × Bytes)) = .ok (a, rest) := h
    cases this; omega
  | cons b bs =>
    rw [vintLast, Reader.bind_ok (readByte_cons _ _)] at h
    simp only [low7_sbyte, more_sbyte] at h
    split at h
    · cases h
    · have : (Except.ok ((((j ||| (b.toNat % 128) <<< 28 : Nat)) : Int), bs) : Except Err (Int × Bytes)) =
        .ok (a, rest) := h
      cases this
      rw [or_shiftLeft (sh := 28) (by omega)]
      have : b.toNat % 128 < 128 := Nat.mod_lt _ (by decide)
      omega

theorem ens_arraySize : readArraySize.Ensures fun n => 0 ≤ n ∧ n ≤ 2 ^ 31 := by
  refine Ensures.bind ens_vint fun n hn => Ensures.ite (fun _ => Ensures.throw) fun h => Ensures.pure ?_
  exact ⟨hn.1, by omega⟩

theorem ens_bytes {n : Int} (h : 0 ≤ n) : (readBytes n).Ensures fun b => (b.length : Int) ≤ n := by
  intro bs a rest hb
  unfold readBytes at hb
  rw [if_neg (by omega)] at hb
  have : (Except.ok (bs.take n.toNat, bs.drop n.toNat) : Except Err (Bytes × Bytes)) = .ok (a, rest) := hb
  cases this
  rw [List.length_take]; omega

theorem ens_string : readString.Ensures StrOK := by
  refine Ensures.bind ens_arraySize fun n hn => Ensures.bind (ens_bytes hn.1) fun b hb => ?_
  intro bs a rest h
  unfold decodeStr at h
  cases hd : decodeUtf8? b with
  | none => rw [hd] at h; cases h
  | some s =>
    rw [hd] at h
    have : (Except.ok (s, bs) : Except Err (String × Bytes)) = .ok (a, rest) := h
    cases this
    have := decodeUtf8_eq_some.1 hd
    unfold StrOK; rw [← this]; omega

theorem ens_stringArray : readStringArray.Ensures StrsOK := by
  refine Ensures.bind ens_arraySize fun n hn => (Ensures.times ens_string _).mono fun l hl => ?_
  exact ⟨by rw [hl.1]; omega, hl.2⟩

theorem mem_set {κ ν : Type} [DecidableEq κ] {d : Dict κ ν} {k : κ} {v : ν} {x : κ × ν}
    (h : x ∈ d.set k v) : x ∈ d ∨ x = (k, v) := by
  induction d with
  | nil => unfold Dict.set at h; simp at h; exact .inr h
  | cons p d ih =>
    obtain ⟨k', v'⟩ := p
    unfold Dict.set at h
    split at h
    · rename_i hk; subst hk
      rcases List.mem_cons.1 h with rfl | h
      · exact .inr rfl
      · exact .inl (by simp [h])
    · rcases List.mem_cons.1 h with rfl | h
      · exact .inl (by simp)
      · rcases ih h with h | h
        · exact .inl (by simp [h])
        · exact .inr h

theorem length_set_le {κ ν : Type} [DecidableEq κ] (d : Dict κ ν) (k : κ) (v : ν) :
    (d.set k v).length ≤ d.length + 1 := by
  induction d with
  | nil => exact Nat.le_refl _
  | cons p d ih =>
    obtain ⟨k', v'⟩ := p
    unfold Dict.set
    split <;> simp <;> omega

theorem foldl_set_facts {κ ν : Type} [DecidableEq κ] (l : List (κ × ν)) (d : Dict κ ν) :
    (l.foldl (fun d kv => Dict.set d kv.1 kv.2) d).length ≤ d.length + l.length ∧
    ∀ x ∈ l.foldl (fun d kv => Dict.set d kv.1 kv.2) d, x ∈ d ∨ x ∈ l := by
  induction l generalizing d with
  | nil => exact ⟨by simp, fun x hx => .inl hx⟩
  | cons p l ih =>
    rw [List.foldl_cons]
    obtain ⟨h1, h2⟩ := ih (Dict.set d p.1 p.2)
    have := length_set_le d p.1 p.2
    refine ⟨by simp only [List.length_cons]; omega, fun x hx => ?_⟩
    rcases h2 x hx with h | h
    · rcases mem_set h with h | h
      · exact .inl h
      · exact .inr (by simp [h])
    · exact .inr (by simp [h])

theorem ens_dict {α : Type} {value : Reader α} {P : α → Prop} (h : value.Ensures P) :
    (readDict value).Ensures fun d => d.WF ∧ d.length < 2 ^ 35 ∧ ∀ kv ∈ d, StrOK kv.1 ∧ P kv.2 := by
  have hi : (readItem value).Ensures fun kv => StrOK kv.1 ∧ P kv.2 :=
    Ensures.bind ens_string fun k hk => Ensures.bind h fun v hv => Ensures.pure ⟨hk, hv⟩
  refine Ensures.bind ens_vint fun n hn => Ensures.bind (Ensures.times hi _) fun l hl => Ensures.pure ?_
  obtain ⟨f1, f2⟩ := foldl_set_facts l []
  refine ⟨Dict.ofItems_wf l, ?_, fun kv hkv => ?_⟩
  · have e1 : (Dict.ofItems l).length ≤ 0 + l.length := f1
    have e2 := hl.1
    omega
  · rcases f2 kv hkv with h | h
    · simp at h
    · exact hl.2 kv h

theorem length_foldl_pySet {α} [DecidableEq α] (l s : List α) :
    (l.foldl (fun s x => if x ∈ s then s else s ++ [x]) s).length ≤ s.length + l.length := by
  induction l generalizing s with
  | nil => simp
  | cons x l ih =>
    rw [List.foldl_cons]
    refine (ih _).trans ?_
    split <;> simp <;> omega

/-- A thread context that was read from the wire can be written to the wire. -/
theorem ens_ctx : ThreadContext.readFrom.Ensures CtxOK := by
  refine Ensures.bind (ens_dict ens_string) fun req h1 => ?_
  have hs : (do let a ← readStringArray; return pySet a : Reader (List String)).Ensures
      fun l => StrsOK l ∧ l.Nodup :=
    Ensures.bind ens_stringArray fun a ha => Ensures.pure ⟨⟨by
      have : (pySet a).length ≤ 0 + a.length := length_foldl_pySet a []
      have := ha.1; omega, fun s hs => ha.2 s ((mem_pySet a s).1 hs)⟩, pySet_nodup a⟩
  refine Ensures.bind (ens_dict hs) fun res h2 => Ensures.pure ⟨h1, ⟨⟨h2.1, h2.2.1, fun kv hkv => ?_⟩,
    fun kv hkv => ?_⟩⟩
  · exact ⟨(h2.2.2 kv hkv).1, (h2.2.2 kv hkv).2.1⟩
  · exact (h2.2.2 kv hkv).2.2

end Verif
