/-!
# The Python runtime pieces shared by the whole model

Byte strings, exceptions, the reader monad (what is left of an `io.BytesIO`) and
the writer (what a `BytesIO` subclass has received so far, plus an exception).
-/

namespace Verif

/-- Python `bytes` / `bytearray`. -/
abbrev Bytes := List UInt8

/-- Exception classes raised by the modelled code (messages are not modelled). -/
inductive Err where
  | overflow      -- OverflowError            (int.to_bytes)
  | value         -- ValueError               (Enum(...), int("x"), ...)
  | type          -- TypeError
  | unicode       -- UnicodeDecodeError       (a ValueError in Python, kept apart here)
  | struct        -- struct.error
  | recursion     -- RecursionError
  | address       -- ipaddress.AddressValueError
  | attribute     -- AttributeError
  | key           -- KeyError
  | proto         -- google.protobuf.message.DecodeError
  | exception     -- a plain `Exception(...)` raised by the SDK
  | user          -- whatever user code (REST handlers, validators) raises
  deriving DecidableEq, Repr

/-- A decoder over the unread part of the input.  Models a method of `StreamInput`
(transport/stream_input.py:20-23): `self.data` is an `io.BytesIO`, its unread part is the
argument, the unread part afterwards is in the result. -/
def Reader (α : Type) := Bytes → Except Err (α × Bytes)

namespace Reader

/-- Return without consuming. -/
protected def pure {α} (a : α) : Reader α := fun bs => .ok (a, bs)

/-- Sequencing of two reads; an exception in the first aborts. -/
protected def bind {α β} (r : Reader α) (f : α → Reader β) : Reader β := fun bs =>
  match r bs with
  | .error e => .error e
  | .ok (a, rest) => f a rest

instance : Monad Reader where
  pure := Reader.pure
  bind := Reader.bind

/-- `raise e`. -/
def throw {α} (e : Err) : Reader α := fun _ => .error e

/-- Lift a computation that does not touch the stream. -/
def lift {α} (x : Except Err α) : Reader α := fun bs =>
  match x with
  | .error e => .error e
  | .ok a => .ok (a, bs)

theorem pure_def {α} (a : α) (bs : Bytes) : (pure a : Reader α) bs = .ok (a, bs) := rfl

theorem bind_def {α β} (r : Reader α) (f : α → Reader β) (bs : Bytes) :
    (r >>= f) bs = (match r bs with
      | .error e => .error e
      | .ok (a, rest) => f a rest) := rfl

theorem bind_ok {α β} {r : Reader α} {f : α → Reader β} {bs rest : Bytes} {a : α}
    (h : r bs = .ok (a, rest)) : (r >>= f) bs = f a rest := by
  rw [bind_def, h]

theorem bind_error {α β} {r : Reader α} {f : α → Reader β} {bs : Bytes} {e : Err}
    (h : r bs = .error e) : (r >>= f) bs = .error e := by
  rw [bind_def, h]

theorem bind_eq_ok {α β} {r : Reader α} {f : α → Reader β} {bs rest : Bytes} {b : β} :
    (r >>= f) bs = .ok (b, rest) ↔ ∃ a mid, r bs = .ok (a, mid) ∧ f a mid = .ok (b, rest) := by
  rw [bind_def]
  cases h : r bs with
  | error e => simp
  | ok p =>
    obtain ⟨a, mid⟩ := p
    constructor
    · intro h'; exact ⟨a, mid, rfl, h'⟩
    · rintro ⟨a', mid', h1, h2⟩; cases h1; exact h2

theorem throw_def {α} (e : Err) (bs : Bytes) : (throw e : Reader α) bs = .error e := rfl

@[simp] theorem lift_ok {α} (a : α) (bs : Bytes) : lift (.ok a) bs = .ok (a, bs) := rfl
@[simp] theorem lift_error {α} (e : Err) (bs : Bytes) : (lift (.error e) : Reader α) bs = .error e := rfl

instance : LawfulMonad Reader := LawfulMonad.mk' (m := Reader)
  (id_map := by
    intro α x; funext bs
    show Reader.bind x (fun a => Reader.pure (id a)) bs = x bs
    unfold Reader.bind Reader.pure; cases x bs with
    | error e => rfl
    | ok p => rfl)
  (pure_bind := by intro α β a f; rfl)
  (bind_assoc := by
    intro α β γ x f g; funext bs
    show Reader.bind (Reader.bind x f) g bs = Reader.bind x (fun a => Reader.bind (f a) g) bs
    unfold Reader.bind
    cases x bs with
    | error e => rfl
    | ok p => rfl)

/-- `[r() for _ in range(n)]`: the loop `for i in range(size): result.append(r())`. -/
def times {α} (r : Reader α) : Nat → Reader (List α)
  | 0 => pure []
  | n + 1 => do
    let a ← r
    let as ← times r n
    pure (a :: as)

end Reader

/-- Everything a `StreamOutput` has received, and the exception that stopped the writing, if
any.  Models transport/stream_output.py:19 (`class StreamOutput(BytesIO)`). -/
structure W where
  out : Bytes
  err : Option Err
  deriving DecidableEq, Repr

namespace W

/-- Nothing written, no exception. -/
def nil : W := ⟨[], none⟩

/-- `self.write(bs)`. -/
def emit (bs : Bytes) : W := ⟨bs, none⟩

/-- `raise e`. -/
def fail (e : Err) : W := ⟨[], some e⟩

/-- Statement sequencing: after an exception nothing more is written. -/
def seq (a b : W) : W :=
  match a.err with
  | some _ => a
  | none => ⟨a.out ++ b.out, b.err⟩

instance : Append W := ⟨seq⟩

/-- `for x in xs: f(x)`. -/
def forEach {α} (f : α → W) : List α → W
  | [] => nil
  | x :: xs => f x ++ forEach f xs

theorem append_def (a b : W) : a ++ b = seq a b := rfl

theorem append_ok {a b : W} (h : a.err = none) : a ++ b = ⟨a.out ++ b.out, b.err⟩ := by
  simp [append_def, seq, h]

theorem append_err {a b : W} {e : Err} (h : a.err = some e) : a ++ b = a := by
  simp [append_def, seq, h]

@[simp] theorem emit_out (b : Bytes) : (emit b).out = b := rfl
@[simp] theorem emit_err (b : Bytes) : (emit b).err = none := rfl
@[simp] theorem nil_out : nil.out = [] := rfl
@[simp] theorem nil_err : nil.err = none := rfl
@[simp] theorem fail_err (e : Err) : (fail e).err = some e := rfl
@[simp] theorem fail_out (e : Err) : (fail e).out = [] := rfl

@[simp] theorem err_append (a b : W) : (a ++ b).err = none ↔ a.err = none ∧ b.err = none := by
  simp only [append_def, seq]; cases h : a.err <;> simp [h]

theorem out_append {a b : W} (h : a.err = none) : (a ++ b).out = a.out ++ b.out := by
  simp [append_ok h]

theorem ext' {a b : W} (h1 : a.out = b.out) (h2 : a.err = b.err) : a = b := by
  cases a; cases b; simp_all

theorem append_assoc (a b c : W) : a ++ b ++ c = a ++ (b ++ c) := by
  simp only [append_def, seq]
  rcases a with ⟨ao, ae⟩; rcases b with ⟨bo, be⟩; rcases c with ⟨co, ce⟩
  cases ae <;> cases be <;> simp

@[simp] theorem nil_append (a : W) : nil ++ a = a := by
  simp [append_def, seq, nil]

@[simp] theorem append_nil (a : W) : a ++ nil = a := by
  rcases a with ⟨ao, ae⟩; simp only [append_def, seq, nil]; cases ae <;> simp

end W

end Verif
