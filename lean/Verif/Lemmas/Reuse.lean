import Verif.Spec.Reuse
import Verif.Lemmas.Dict
import Mathlib.Data.List.Induction
/-!
# Reading into an object that was used before
-/

namespace Verif
open Py StreamInput

/-- `d.update(l)`: the assignments `l`, one after the other. -/
def PyObject.update (d : PyObject) (l : List (String × Attr)) : PyObject := l.foldl (fun d kv => d.set kv.1 kv.2) d

/-- `m`, after the attributes `l` have been assigned, assigns the rest of `g v` where `r` reads `v`. -/
def Does (l : List (String × Attr)) (m : Into Unit) {β : Type} (r : Reader β) (g : β → List (String × Attr)) : Prop :=
  ∀ (d : PyObject) bs, match r bs with
    | .ok (v, rest) => m (d.update l) bs = (d.update (g v), .ok ((), rest))
    | .error e => (m (d.update l) bs).2 = .error e

theorem PyObject.update_snoc (d : PyObject) (l : List (String × Attr)) (n : String) (v : Attr) :
    d.update (l ++ [(n, v)]) = (d.update l).set n v := by
  unfold PyObject.update; rw [List.foldl_append]; rfl

theorem Does.read {α β : Type} {l : List (String × Attr)} {rd : Reader α} {k : α → Into Unit} {k' : α → Reader β}
    {g : β → List (String × Attr)} (h : ∀ x, Does l (k x) (k' x) g) : Does l (Into.read rd >>= k) (rd >>= k') g := by
  intro d bs
  show match Reader.bind rd k' bs with
    | .ok (v, rest) => Into.bind (Into.read rd) k (d.update l) bs = (d.update (g v), .ok ((), rest))
    | .error e => (Into.bind (Into.read rd) k (d.update l) bs).2 = .error e
  unfold Reader.bind Into.bind Into.read
  cases hr : rd bs with
  | error e => simp
  | ok p => exact h p.1 d p.2

theorem Does.assign {β : Type} {l : List (String × Attr)} {n : String} {v : Attr} {k : Unit → Into Unit} {r : Reader β}
    {g : β → List (String × Attr)} (h : Does (l ++ [(n, v)]) (k ()) r g) : Does l (Into.assign n v >>= k) r g := by
  intro d bs
  have := h d bs
  rw [PyObject.update_snoc] at this
  exact this

theorem Does.last {β : Type} {l : List (String × Attr)} {n : String} {v : Attr} {x : β}
    {g : β → List (String × Attr)} (h : g x = l ++ [(n, v)]) : Does l (Into.assign n v) (pure x) g := by
  intro d bs
  show (_, _) = _
  rw [h, PyObject.update_snoc]

theorem set_set (d : PyObject) (k : String) (a b : Attr) : (d.set k a).set k b = d.set k b := by
  induction d with
  | nil => simp [Dict.set]
  | cons p d ih =>
    unfold Dict.set
    by_cases h : p.1 = k
    · simp [h, Dict.set]
    · simp [h, Dict.set, ih]

theorem Does.again {β : Type} {l : List (String × Attr)} {n : String} {a v : Attr} {x : β}
    {g : β → List (String × Attr)} (h : g x = l ++ [(n, v)]) : Does (l ++ [(n, a)]) (Into.assign n v) (pure x) g := by
  intro d bs
  show (_, _) = _
  rw [h, PyObject.update_snoc, PyObject.update_snoc, set_set]

theorem Does.done {β : Type} {l : List (String × Attr)} {x : β}
    {g : β → List (String × Attr)} (h : g x = l) : Does l (pure ()) (pure x) g := by
  intro d bs
  show (_, _) = _
  rw [h]

theorem Does.super {α β : Type} {l : List (String × Attr)} {m : Into Unit} {r : Reader α} {g : α → List (String × Attr)}
    {k : Unit → Into Unit} {k' : α → Reader β} {g' : β → List (String × Attr)} (h : Does l m r g)
    (hk : ∀ x, Does (g x) (k ()) (k' x) g') : Does l (m >>= k) (r >>= k') g' := by
  intro d bs
  have h1 := h d bs
  show match Reader.bind r k' bs with
    | .ok (v, rest) => Into.bind m k (d.update l) bs = (d.update (g' v), .ok ((), rest))
    | .error e => (Into.bind m k (d.update l) bs).2 = .error e
  unfold Reader.bind Into.bind
  cases hr : r bs with
  | error e =>
    rw [hr] at h1
    dsimp only at h1 ⊢
    rcases hm : m (d.update l) bs with ⟨d', e' | p⟩
    · rw [hm] at h1; exact h1
    · rw [hm] at h1; cases h1
  | ok p =>
    rw [hr] at h1
    dsimp only at h1 ⊢
    rw [h1]
    exact hk p.1 d p.2

theorem Does.throw {β : Type} {l : List (String × Attr)} {e : Err} {g : β → List (String × Attr)} :
    Does l (Into.read (Reader.throw e)) (Reader.throw e) g := by
  intro d bs
  rfl

theorem Does.said {β : Type} {m : Into Unit} {r : Reader β} {a : β → List Attr} {n : List String}
    (h : Does [] m r (fun v => n.zip (a v))) : ∀ (d : PyObject) bs, match (a <$> r) bs with
    | .ok (v, rest) => m d bs = (d.update (n.zip v), .ok ((), rest))
    | .error e => (m d bs).2 = .error e := by
  intro d bs
  have := h d bs
  show match Reader.bind r (fun v => pure (a v)) bs with
    | .ok (v, rest) => m d bs = (d.update (n.zip v), .ok ((), rest))
    | .error e => (m d bs).2 = .error e
  unfold Reader.bind
  cases hr : r bs with
  | error e => rw [hr] at this; exact this
  | ok p => rw [hr] at this; exact this


macro "steps" : tactic => `(tactic|
  repeat (first
    | (refine Does.read ?_; intro _)
    | refine Does.assign ?_
    | exact Does.last rfl))

theorem Does.map {α β : Type} {l : List (String × Attr)} {m : Into Unit} {r : Reader α} {g : α → List (String × Attr)}
    {f : α → β} {g' : β → List (String × Attr)} (h : Does l m r g) (hg : ∀ x, g' (f x) = g x) :
    Does l m (r >>= fun x => pure (f x)) g' := by
  intro d bs
  have h1 := h d bs
  show match Reader.bind r _ bs with
    | .ok (v, rest) => m (d.update l) bs = (d.update (g' v), .ok ((), rest))
    | .error e => (m (d.update l) bs).2 = .error e
  unfold Reader.bind
  cases hr : r bs with
  | error e => rw [hr] at h1; exact h1
  | ok p =>
    rw [hr] at h1
    show _ = (d.update (g' (f p.1)), _)
    rw [hg]
    exact h1

/-- One read, and what is done with it. -/
theorem Does.one {α : Type} {l : List (String × Attr)} {rd : Reader α} {k : α → Into Unit} {g : α → List (String × Attr)}
    (h : ∀ x (d : PyObject) bs, k x (d.update l) bs = (d.update (g x), .ok ((), bs))) : Does l (Into.read rd >>= k) rd g := by
  intro d bs
  show match rd bs with
    | .ok (v, rest) => Into.bind (Into.read rd) k (d.update l) bs = (d.update (g v), .ok ((), rest))
    | .error e => (Into.bind (Into.read rd) k (d.update l) bs).2 = .error e
  unfold Into.bind Into.read
  cases rd bs with
  | error e => rfl
  | ok p => exact h p.1 d p.2

theorem Does.loop {α β : Type} {l : List (String × Attr)} {rd : Reader α} {k : α → Into Unit} {f : β → List (String × Attr)}
    {add : β → α → β}
    (h : ∀ acc x (d : PyObject) bs, k x (d.update (f acc)) bs = (d.update (f (add acc x)), .ok ((), bs))) : ∀ (n : Nat) (acc : β),
    Does (f acc) (Into.repeated (Into.read rd >>= k) n) (rd.times n) (fun xs => f (xs.foldl add acc))
  | 0, _ => Does.done rfl
  | n + 1, acc => Does.super (Does.one (h acc)) fun x => Does.map (Does.loop (l := l) h n (add acc x)) fun _ => rfl

theorem does_roles (l : List (String × Attr)) (n : Nat) (acc : List Role) :
    Does (l ++ [("roles", .roles acc)]) (Into.repeated (Into.read DiscoveryNode.readRole >>= fun x => Into.addRole x) n)
      (DiscoveryNode.readRole.times n)
      (fun rs => l ++ [("roles", .roles (rs.foldl (fun s x => if x ∈ s then s else s ++ [x]) acc))]) := by
  refine Does.loop (l := l) (f := fun acc => l ++ [("roles", .roles acc)]) (add := fun s x => if x ∈ s then s else s ++ [x]) ?_ n acc
  intro acc x d bs
  rw [PyObject.update_snoc, PyObject.update_snoc]
  unfold Into.addRole
  rw [Dict.get?_set, if_pos rfl]
  dsimp only
  rw [set_set]

theorem does_deps (l : List (String × Attr)) (n : Nat) (acc : List ExtensionDependency) :
    Does (l ++ [("dependencies", .deps acc)])
      (Into.repeated (Into.read ExtensionDependency.readFrom >>= fun x => Into.addDependency x) n)
      (ExtensionDependency.readFrom.times n)
      (fun rs => l ++ [("dependencies", .deps (rs.foldl (fun s x => s ++ [x]) acc))]) := by
  refine Does.loop (l := l) (f := fun acc => l ++ [("dependencies", .deps acc)]) (add := fun s x => s ++ [x]) ?_ n acc
  intro acc x d bs
  rw [PyObject.update_snoc, PyObject.update_snoc]
  unfold Into.addDependency
  rw [Dict.get?_set, if_pos rfl]
  dsimp only
  rw [set_set]

theorem foldl_snoc {α : Type} : ∀ (l acc : List α), l.foldl (fun s x => s ++ [x]) acc = acc ++ l
  | [], acc => (List.append_nil acc).symm
  | a :: l, acc => by rw [List.foldl_cons, foldl_snoc l, List.append_assoc]; rfl

theorem pySet_roles (rs : List Role) : pySet rs = rs.foldl (fun s x => if x ∈ s then s else s ++ [x]) [] := by
  unfold pySet
  congr 1
  funext s x
  by_cases h : x ∈ s
  · rw [if_pos h, if_pos h]
  · rw [if_neg h, if_neg h]

theorem does_node : Does [] Into.discoveryNode DiscoveryNode.readFrom
    (fun n => Readable.discoveryNode.wire.zip n.attributes') := by
  unfold Into.discoveryNode DiscoveryNode.readFrom
  exact Does.read fun a1 => Does.assign (Does.read fun a2 => Does.assign (Does.read fun a3 => Does.assign (Does.read fun a4 =>
    Does.assign (Does.read fun a5 => Does.assign (Does.read fun a6 => Does.assign (Does.read fun a7 => Does.assign
    (Does.assign (Does.read fun n => Does.super (does_roles _ _ _) fun rs => Does.read fun v => Does.last (by rw [← pySet_roles]; rfl)))))))))

theorem does_request : Does [] Into.transportRequest TaskId.readFrom (fun t => [("parent_task_id", .task t)]) :=
  Does.one fun _ _ _ => rfl

theorem Does.readMap {α β γ : Type} {l : List (String × Attr)} {rd : Reader α} {k : α → Into Unit} {f : α → γ} {k' : γ → Reader β}
    {g : β → List (String × Attr)} (h : ∀ x, Does l (k x) (k' (f x)) g) : Does l (Into.read rd >>= k) ((f <$> rd) >>= k') g := by
  intro d bs
  show match Reader.bind (Reader.bind rd fun x => pure (f x)) k' bs with
    | .ok (v, rest) => Into.bind (Into.read rd) k (d.update l) bs = (d.update (g v), .ok ((), rest))
    | .error e => (Into.bind (Into.read rd) k (d.update l) bs).2 = .error e
  unfold Reader.bind Into.bind Into.read
  cases hr : rd bs with
  | error e => simp
  | ok p => exact h p.1 d p.2

theorem does_assign_if {β : Type} {l : List (String × Attr)} {c : Prop} [Decidable c] {a b : Into Unit} {r r' : Reader β}
    {g : β → List (String × Attr)} (h : c → Does l a r g) (h' : ¬ c → Does l b r' g) :
    Does l (if c then a else b) (if c then r else r') g := by
  by_cases hc : c
  · rw [if_pos hc, if_pos hc]; exact h hc
  · rw [if_neg hc, if_neg hc]; exact h' hc

/-- Every class but the REST request. -/
theorem said_all (k : Readable) (hk : k ≠ .extensionRestRequest) : ∀ (d : PyObject) bs, match k.said bs with
    | .ok (v, rest) => k.into d bs = (d.update (k.wire.zip v), .ok ((), rest))
    | .error e => (k.into d bs).2 = .error e := by
  cases k with
  | extensionRestRequest => exact absurd rfl hk
  | tcpHeader => refine Does.said (r := TcpHeader.readFrom) (a := TcpHeader.attributes) ?_; unfold Readable.into Into.tcpHeader TcpHeader.readFrom; steps
  | threadContext => refine Does.said ?_; unfold Readable.into Into.threadContext ThreadContext.readFrom; steps
  | taskId =>
    refine Does.said ?_
    unfold Readable.into Into.taskId TaskId.readFrom
    refine Does.read fun a => Does.assign (does_assign_if (fun _ => ?_) fun _ => ?_) <;> steps
  | transportRequest => exact Does.said (Does.map does_request fun _ => rfl)
  | transportAddress =>
    refine Does.said ?_
    unfold Readable.into Into.transportAddress TransportAddress.readFrom
    refine Does.read fun a => does_assign_if (fun _ => Does.throw) (fun _ => ?_)
    steps
  | discoveryNode => exact Does.said does_node
  | extensionDependency => refine Does.said ?_; unfold Readable.into Into.extensionDependency ExtensionDependency.readFrom; steps
  | discoveryExtensionNode =>
    refine Does.said ?_
    unfold Readable.into Into.discoveryExtensionNode DiscoveryExtensionNode.readFrom
    refine Does.super does_node fun n => Does.read fun v => Does.assign (Does.assign (Does.read fun m =>
      Does.map (does_deps _ _ _) fun ds => ?_))
    rw [foldl_snoc]
    rfl
  | initializeExtensionRequest =>
    refine Does.said ?_
    unfold Readable.into Into.initializeExtensionRequest InitializeExtensionRequest.readFrom
    refine Does.super does_request fun n => ?_
    steps
  | initializeExtensionResponse => refine Does.said ?_; unfold Readable.into Into.initializeExtensionResponse InitializeExtensionResponse.readFrom; steps
  | acknowledgedResponse => refine Does.said ?_; unfold Readable.into Into.acknowledgedResponse AcknowledgedResponse.readFrom; steps
  | handshakerRequest =>
    refine Does.said ?_
    unfold Readable.into Into.handshakerRequest HandshakerRequest.readFrom
    refine Does.super does_request fun n => ?_
    steps
  | handshakerResponse => refine Does.said ?_; unfold Readable.into Into.handshakerResponse HandshakerResponse.readFrom; steps
  | serviceHandshakeResponse =>
    refine Does.said ?_
    unfold Readable.into Into.serviceHandshakeResponse ServiceHandshakeResponse.readFrom
    refine Does.read fun b => ?_
    cases b with
    | true =>
      refine Does.readMap fun n => Does.assign ?_
      steps
    | false => exact Does.assign (Does.read fun c => Does.assign (Does.read fun v => Does.last rfl))
  | registerRestActionsRequest =>
    refine Does.said ?_
    unfold Readable.into Into.registerRestActionsRequest RegisterRestActionsRequest.readFrom
    refine Does.super does_request fun t => Does.read fun n => Does.read fun bs => Does.assign (Does.read fun r => ?_)
    exact Does.again rfl
  | extensionTransportRequest =>
    refine Does.said ?_
    unfold Readable.into Into.extensionTransportRequest ExtensionTransportRequest.readFrom
    refine Does.super does_request fun t => Does.read fun n => Does.read fun bs => Does.assign (Does.read fun r => ?_)
    exact Does.again rfl
  | extensionRestResponse => refine Does.said ?_; unfold Readable.into Into.extensionRestResponse ExtensionRestResponse.readFrom; steps
  | restExecuteOnExtensionResponse => refine Does.said ?_; unfold Readable.into Into.restExecuteOnExtensionResponse RestExecuteOnExtensionResponse.readFrom; steps
  | integerParser => refine Does.said ?_; unfold Readable.into Into.intParser IntParser.readFrom; steps
  | longParser => refine Does.said ?_; unfold Readable.into Into.intParser IntParser.readLongFrom; steps
  | floatParser => refine Does.said ?_; unfold Readable.into Into.floatParser FloatParser.readFloatFrom; steps
  | doubleParser => refine Does.said ?_; unfold Readable.into Into.floatParser FloatParser.readDoubleFrom; steps
  | timeParser => 
    refine Does.said ?_
    unfold Readable.into Into.timeParser TimeParser.readFrom
    refine Does.read fun b => ?_
    cases b with
    | true => rw [if_pos rfl]; steps
    | false => steps
  | sizeParser => refine Does.said ?_; unfold Readable.into Into.sizeParser SizeParser.readFrom; steps
  | regexValidator => refine Does.said ?_; unfold Readable.into Into.regexValidator RegexValidator.readFrom; steps
  | byteSizeValue => refine Does.said ?_; unfold Readable.into Into.byteSizeValue readByteSizeValue; steps

theorem set_same {d : PyObject} {k : String} {v : Attr} (h : Dict.get? d k = some v) : d.set k v = d := by
  induction d with
  | nil => cases h
  | cons p d ih =>
    unfold Dict.get? at h
    unfold Dict.set
    by_cases hk : p.1 = k
    · rw [if_pos hk] at h ⊢
      cases h
      rfl
    · rw [if_neg hk] at h ⊢
      rw [ih h]

theorem Does.noop {β : Type} {l : List (String × Attr)} {n : String} {v : Attr} {m : Into Unit} {r : Reader β}
    {g : β → List (String × Attr)} (h : Does (l ++ [(n, v)]) m r g) (hl : ∀ d : PyObject, Dict.get? (d.update l) n = some v) :
    Does l m r g := by
  intro d bs
  have := h d bs
  rw [PyObject.update_snoc, set_same (hl d)] at this
  exact this

theorem get?_update_mem {d d' : PyObject} {l : List (String × Attr)} {a : String} (h : a ∈ l.map (·.1)) :
    ∃ v, Dict.get? (d.update l) a = some v ∧ Dict.get? (d'.update l) a = some v := by
  induction l using List.reverseRecOn with
  | nil => cases h
  | append_singleton l kv ih =>
    obtain ⟨k, v⟩ := kv
    rw [PyObject.update_snoc, PyObject.update_snoc, Dict.get?_set, Dict.get?_set]
    by_cases hk : a = k
    · exact ⟨v, by simp [hk], by simp [hk]⟩
    · have : a ∈ l.map (·.1) := by simpa [hk] using h
      obtain ⟨w, h1, h2⟩ := ih this
      refine ⟨w, ?_, ?_⟩
      · simpa [hk, Ne.symm hk] using h1
      · simpa [hk, Ne.symm hk] using h2

theorem get?_update_nodup {d : PyObject} {l : List (String × Attr)} {a : String} (hn : (l.map (·.1)).Nodup)
    (h : a ∈ l.map (·.1)) : Dict.get? (d.update l) a = Dict.get? l a := by
  have he : PyObject.update [] l = l := by
    show Dict.ofItems l = l
    exact Dict.ofItems_of_wf hn
  obtain ⟨v, h1, h2⟩ := get?_update_mem (d := d) (d' := []) h
  rw [h1, ← h2, he]

theorem Does.assoc {α β γ : Type} {l : List (String × Attr)} {m : Into Unit} {r : Reader α} {f : α → Reader γ} {k : γ → Reader β}
    {g : β → List (String × Attr)} (h : Does l m (r >>= fun x => f x >>= k) g) : Does l m ((r >>= f) >>= k) g := by
  have e : ((r >>= f) >>= k) = (r >>= fun x => f x >>= k) := by
    funext bs
    show Reader.bind (Reader.bind r f) k bs = Reader.bind r (fun x => Reader.bind (f x) k) bs
    unfold Reader.bind
    cases r bs <;> rfl
  rw [e]
  exact h

/-- The REST request, read into an object with a media type. -/
theorem does_rest (m : String) : Does [("media_type", .str m)] Into.extensionRestRequest
    (ExtensionRestRequest.readFrom { media_type := m })
    (fun r => [("media_type", .str m), ("parent_task_id", .task r.parent_task_id),
      ("method", match r.method with | some m => .method m | none => .none), ("uri", .str r.uri), ("path", .str r.path),
      ("params", .dict r.params), ("headers", .listDict r.headers), ("media_type", .str r.media_type), ("_content", .bytes r.content_),
      ("principal_identifier_token", .str r.principal_identifier_token),
      ("http_version", match r.http_version with | some v => .http v | none => .none)]) := by
  unfold Into.extensionRestRequest ExtensionRestRequest.readFrom
  refine Does.super (g := fun t => [("media_type", .str m), ("parent_task_id", .task t)]) (Does.one fun _ _ _ => rfl) fun t => ?_
  refine Does.read fun v => Does.assign (Does.read fun u => Does.assign (Does.read fun p => Does.assign (Does.read fun q =>
    Does.assign (Does.read fun h => Does.assign ?_))))
  unfold ExtensionRestRequest.readMediaType
  refine Does.assoc (Does.read fun b => ?_)
  cases b with
  | true =>
    rw [if_pos rfl]
    exact Does.read fun x => Does.assign (Does.read fun n => Does.read fun c => Does.assign (Does.read fun pit => Does.assign
      (Does.read fun hv => Does.last rfl)))
  | false =>
    refine Does.noop (n := "media_type") (v := .str m) (Does.read fun n => Does.read fun c => Does.assign (Does.read fun pit => Does.assign
      (Does.read fun hv => Does.last rfl))) ?_
    intro d
    simp [PyObject.update, Dict.get?_set]

/-- A method that touches no other attributes than these, whether it raises or not. -/
def Keeps {α : Type} (names : List String) (m : Into α) : Prop :=
  ∀ (d : PyObject) bs a, a ∉ names → Dict.get? (m d bs).1 a = Dict.get? d a

theorem Keeps.bind {α β : Type} {names : List String} {m : Into α} {f : α → Into β} (hm : Keeps names m)
    (hf : ∀ x, Keeps names (f x)) : Keeps names (m >>= f) := by
  intro d bs a ha
  have h1 := hm d bs a ha
  show Dict.get? (Into.bind m f d bs).1 a = _
  unfold Into.bind
  rcases h : m d bs with ⟨d', e | p⟩
  · rw [h] at h1; exact h1
  · rw [h] at h1
    exact (hf p.1 d' p.2 a ha).trans h1

theorem Keeps.pure {α : Type} {names : List String} {x : α} : Keeps names (pure x : Into α) := fun _ _ _ _ => rfl

theorem Keeps.read {α : Type} {names : List String} {r : Reader α} : Keeps names (Into.read r) := by
  intro d bs a _
  unfold Into.read
  cases r bs <;> rfl

theorem Keeps.assign {names : List String} {n : String} {v : Attr} (h : n ∈ names) : Keeps names (Into.assign n v) := by
  intro d bs a ha
  show Dict.get? (d.set n v) a = _
  rw [Dict.get?_set]
  rw [if_neg (fun e : n = a => ha (e ▸ h))]

theorem Keeps.addRole {names : List String} {r : Role} (h : "roles" ∈ names) : Keeps names (Into.addRole r) := by
  intro d bs a ha
  unfold Into.addRole
  split
  · show Dict.get? (d.set "roles" _) a = _
    rw [Dict.get?_set]
    rw [if_neg (fun e : "roles" = a => ha (e ▸ h))]
  · rfl

theorem Keeps.addDependency {names : List String} {r : ExtensionDependency} (h : "dependencies" ∈ names) :
    Keeps names (Into.addDependency r) := by
  intro d bs a ha
  unfold Into.addDependency
  split
  · show Dict.get? (d.set "dependencies" _) a = _
    rw [Dict.get?_set]
    rw [if_neg (fun e : "dependencies" = a => ha (e ▸ h))]
  · rfl

theorem Keeps.repeated {names : List String} {m : Into Unit} (h : Keeps names m) : ∀ n, Keeps names (Into.repeated m n)
  | 0 => Keeps.pure
  | n + 1 => Keeps.bind h fun _ => Keeps.repeated h n

theorem Keeps.ite {α : Type} {names : List String} {c : Prop} [Decidable c] {a b : Into α} (h : Keeps names a)
    (h' : Keeps names b) : Keeps names (if c then a else b) := by
  split
  · exact h
  · exact h'

macro "keeps" : tactic => `(tactic|
  repeat (first
    | exact Keeps.assign (by decide)
    | exact Keeps.read
    | exact Keeps.pure
    | exact Keeps.addRole (by decide)
    | exact Keeps.addDependency (by decide)
    | refine Keeps.repeated ?_ _
    | refine Keeps.ite ?_ ?_
    | (refine Keeps.bind ?_ ?_; rotate_left; intro _; rotate_right)))

theorem keeps_node (names : List String) (h : ∀ a ∈ Readable.discoveryNode.wire, a ∈ names) : Keeps names Into.discoveryNode := by
  have e : Keeps Readable.discoveryNode.wire Into.discoveryNode := by unfold Into.discoveryNode; keeps
  exact fun d bs a ha => e d bs a fun hm => ha (h a hm)

theorem keeps_request (names : List String) (h : "parent_task_id" ∈ names) : Keeps names Into.transportRequest := by
  unfold Into.transportRequest
  exact Keeps.bind Keeps.read fun _ => Keeps.assign h

theorem keeps_rest : Keeps Readable.extensionRestRequest.wire Into.extensionRestRequest := by
  unfold Into.extensionRestRequest
  exact Keeps.bind (keeps_request _ (by decide)) fun _ => Keeps.bind Keeps.read fun _ => Keeps.bind (Keeps.assign (by decide)) fun _ =>
    Keeps.bind Keeps.read fun _ => Keeps.bind (Keeps.assign (by decide)) fun _ =>
    Keeps.bind Keeps.read fun _ => Keeps.bind (Keeps.assign (by decide)) fun _ =>
    Keeps.bind Keeps.read fun _ => Keeps.bind (Keeps.assign (by decide)) fun _ =>
    Keeps.bind Keeps.read fun _ => Keeps.bind (Keeps.assign (by decide)) fun _ =>
    Keeps.bind Keeps.read fun _ => Keeps.ite
      (Keeps.bind Keeps.read fun _ => Keeps.bind (Keeps.assign (by decide)) fun _ => Keeps.bind Keeps.read fun _ => Keeps.bind Keeps.read fun _ =>
    Keeps.bind (Keeps.assign (by decide)) fun _ => Keeps.bind Keeps.read fun _ => Keeps.bind (Keeps.assign (by decide)) fun _ =>
    Keeps.bind Keeps.read fun _ => Keeps.assign (by decide))
      (Keeps.bind Keeps.read fun _ => Keeps.bind Keeps.read fun _ =>
    Keeps.bind (Keeps.assign (by decide)) fun _ => Keeps.bind Keeps.read fun _ => Keeps.bind (Keeps.assign (by decide)) fun _ =>
    Keeps.bind Keeps.read fun _ => Keeps.assign (by decide))

set_option maxHeartbeats 2000000 in
theorem keeps_all (k : Readable) : Keeps k.wire k.into := by
  cases k <;> unfold Readable.into
  case tcpHeader => unfold Into.tcpHeader; keeps
  case threadContext => unfold Into.threadContext; keeps
  case taskId => unfold Into.taskId; keeps
  case transportRequest => exact keeps_request _ (by decide)
  case transportAddress => unfold Into.transportAddress; keeps
  case discoveryNode => exact keeps_node _ fun _ h => h
  case extensionDependency => unfold Into.extensionDependency; keeps
  case discoveryExtensionNode =>
    unfold Into.discoveryExtensionNode
    refine Keeps.bind (keeps_node _ (by decide)) fun _ => ?_
    keeps
  case initializeExtensionRequest =>
    unfold Into.initializeExtensionRequest
    refine Keeps.bind (keeps_request _ (by decide)) fun _ => ?_
    keeps
  case initializeExtensionResponse => unfold Into.initializeExtensionResponse; keeps
  case acknowledgedResponse => unfold Into.acknowledgedResponse; keeps
  case handshakerRequest =>
    unfold Into.handshakerRequest
    refine Keeps.bind (keeps_request _ (by decide)) fun _ => ?_
    keeps
  case handshakerResponse => unfold Into.handshakerResponse; keeps
  case serviceHandshakeResponse => unfold Into.serviceHandshakeResponse; keeps
  case registerRestActionsRequest =>
    unfold Into.registerRestActionsRequest
    refine Keeps.bind (keeps_request _ (by decide)) fun _ => ?_
    keeps
  case extensionTransportRequest =>
    unfold Into.extensionTransportRequest
    refine Keeps.bind (keeps_request _ (by decide)) fun _ => ?_
    keeps
  case extensionRestRequest => exact keeps_rest
  case extensionRestResponse => unfold Into.extensionRestResponse; keeps
  case restExecuteOnExtensionResponse => unfold Into.restExecuteOnExtensionResponse; keeps
  case integerParser => unfold Into.intParser; keeps
  case longParser => unfold Into.intParser; keeps
  case floatParser => unfold Into.floatParser; keeps
  case doubleParser => unfold Into.floatParser; keeps
  case timeParser => unfold Into.timeParser; keeps
  case sizeParser => unfold Into.sizeParser; keeps
  case regexValidator => unfold Into.regexValidator; keeps
  case byteSizeValue => unfold Into.byteSizeValue; keeps

theorem map_ok_length {β : Type} {r : Reader β} {a : β → List Attr} {n : Nat} (h : ∀ x, (a x).length = n) {bs rest : Bytes}
    {v : List Attr} (hr : (a <$> r) bs = .ok (v, rest)) : v.length = n := by
  have hr : Reader.bind r (fun x => pure (a x)) bs = .ok (v, rest) := hr
  unfold Reader.bind at hr
  cases hb : r bs with
  | error e => rw [hb] at hr; cases hr
  | ok p =>
    rw [hb] at hr
    have : (Except.ok (a p.1, p.2) : Except Err (List Attr × Bytes)) = .ok (v, rest) := hr
    cases this
    exact h _

theorem said_length (k : Readable) {bs rest : Bytes} {v : List Attr} (h : k.said bs = .ok (v, rest)) :
    v.length = k.wire.length := by
  cases k <;> simp only [Readable.said] at h <;> (refine map_ok_length ?_ h; intro _; rfl)

theorem wire_nodup (k : Readable) : k.wire.Nodup := by cases k <;> decide

end Verif
