import Verif.Spec.Extension
import Verif.Props.Rest
import Verif.Model.Host
/-!
# C71, C72: constructing an extension, and what its handlers are called with
-/

namespace Verif
open Py

variable {H : Type}

theorem registerLoop_err (h : H) (l : List NamedRoute) (g : Registry H) (e : Err)
    (he : (Registry.registerLoop h g l).2 = some e) : e = .exception := by
  induction l generalizing g with
  | nil => simp [Registry.registerLoop] at he
  | cons x xs ih =>
    simp only [Registry.registerLoop] at he
    split at he
    · simpa using he.symm
    · exact ih _ he

theorem build_spec (handlers : List (H × List NamedRoute)) (reg : Registry H) (hw : reg.routes.WF) :
    let all := allRoutes handlers
    let keys := reg.routes.map (·.1) ++ all.map fun x => wildcard x.2.key
    (keys.Nodup → Registry.build reg handlers =
      .ok ⟨reg.routes ++ all.map (fun x => (wildcard x.2.key, x.1)), reg.named_routes ++ all.map (·.2.str)⟩) ∧
    (¬ keys.Nodup → Registry.build reg handlers = .error .exception) := by
  induction handlers generalizing reg with
  | nil =>
    refine ⟨fun _ => by simp [Registry.build, allRoutes], fun h => absurd ?_ h⟩
    simp only [allRoutes, List.flatMap_nil, List.map_nil, List.append_nil]; exact hw
  | cons x rest ih =>
    obtain ⟨h, routes⟩ := x
    obtain ⟨acc, rej, e1, e2, e3, e4, e5, e6⟩ := register_facts reg hw h routes
    have e6' : ∀ r rs, rej = r :: rs → wildcard r.key ∈ reg.routes.map (·.1) ++ acc.map (fun r => wildcard r.key) := by
      intro r rs hr
      obtain ⟨h', hh⟩ := e6 r rs hr
      have := List.mem_map_of_mem (f := (·.1)) (Dict.get?_mem hh)
      rw [e2] at this
      simpa [List.map_map, Function.comp_def] using this
    have hall : allRoutes ((h, routes) :: rest) = routes.map (fun r => (h, r)) ++ allRoutes rest := rfl
    simp only [hall, List.map_append, List.map_map, Function.comp_def, Registry.build]
    cases hreg : reg.register h routes with
    | mk reg' err =>
      rw [hreg] at e2 e3 e4 e5
      simp only at e2 e3 e4 e5
      cases err with
      | none =>
        have hrej := e5.1 rfl
        subst hrej
        rw [List.append_nil] at e1
        subst e1
        have ih' := ih reg' e4
        rw [e2, e3] at ih'
        simp only [List.map_append, List.map_map, Function.comp_def, List.append_assoc] at ih'
        exact ih'
      | some e =>
        have hee : e = .exception := registerLoop_err h routes reg e (by
          have : (reg.register h routes).2 = some e := by rw [hreg]
          exact this)
        subst hee
        refine ⟨fun hn => ?_, fun _ => rfl⟩
        exfalso
        cases hrej : rej with
        | nil => have := e5.2 hrej; cases this
        | cons r rs =>
          have hm := e6' r rs hrej
          rw [e1, hrej] at hn
          simp only [List.map_append, List.map_cons] at hn
          rw [List.append_assoc, ← List.append_assoc, List.nodup_append] at hn
          exact hn.2.2 _ hm _ (by simp) rfl

/-- C71: constructing an extension succeeds exactly when no two of its routes conflict, within one
handler or across handlers; then every route of every handler is registered under its wildcard key
with its handler, and advertised, in order; otherwise the construction raises. -/
theorem C71_construction (handlers : List (H × List NamedRoute)) :
    (NoConflict handlers → Registry.build ⟨[], []⟩ handlers =
      .ok ⟨(allRoutes handlers).map (fun x => (wildcard (Spec.routeKey x.2), x.1)), (allRoutes handlers).map (fun x => Spec.routeLine x.2)⟩) ∧
    (¬ NoConflict handlers → Registry.build ⟨[], []⟩ handlers = .error .exception) := by
  have hk : Spec.routeKey = NamedRoute.key := rfl
  have hl : Spec.routeLine = NamedRoute.str := rfl
  have := build_spec handlers ⟨[], []⟩ List.nodup_nil
  simpa [NoConflict, hk, hl] using this

/-- A constructed extension has no conflicts, and advertises all its routes. -/
theorem C71_constructed {handlers : List (H × List NamedRoute)} {reg : Registry H}
    (h : Registry.build ⟨[], []⟩ handlers = .ok reg) :
    NoConflict handlers ∧ reg.named_routes = (allRoutes handlers).map (fun x => Spec.routeLine x.2) ∧
    ∀ x ∈ allRoutes handlers, reg.routes.get? (wildcard (Spec.routeKey x.2)) = some x.1 := by
  by_cases hn : NoConflict handlers
  · rw [(C71_construction handlers).1 hn] at h
    cases h
    refine ⟨hn, rfl, fun x hx => ?_⟩
    apply Dict.get?_of_mem
    · unfold Dict.WF
      rw [List.map_map]; exact hn
    · exact List.mem_map.2 ⟨x, hx, rfl⟩
  · rw [(C71_construction handlers).2 hn] at h
    cases h

example := C71_constructed (handlers := [(1, [⟨.GET, "/a/{x}", "g"⟩, ⟨.PUT, "/a/{x}", "p"⟩]), (2, [⟨.GET, "/a", "h"⟩])]) rfl

example : Registry.build ⟨[], []⟩ [(1, [⟨.GET, "/a/{x}", "g"⟩, ⟨.PUT, "/a/{x}", "p"⟩]), (2, [⟨.GET, "/a", "h"⟩])] =
    .ok ⟨[("GET /a/*", 1), ("PUT /a/*", 1), ("GET /a", 2)], ["GET /a/{x} g", "PUT /a/{x} p", "GET /a h"]⟩ ∧
    Registry.build ⟨[], []⟩ [(1, [⟨.GET, "/a/{x}", "g"⟩]), (2, [⟨.GET, "/a/{y}", "h"⟩])] =
      .error .exception := ⟨rfl, rfl⟩

/-! ## C72 -/

theorem firstMatch_some {route : String} {d : Dict String H} {h : H}
    (hf : Registry.firstMatch route d = some h) : ∃ k, (k, h) ∈ d ∧ fnmatch route k = true := by
  induction d with
  | nil => cases hf
  | cons kv d ih =>
    obtain ⟨k, h0⟩ := kv
    simp only [Registry.firstMatch] at hf
    split at hf
    · next hm => cases hf; exact ⟨k, by simp, hm⟩
    · obtain ⟨k', h1, h2⟩ := ih hf
      exact ⟨k', by simp [h1], h2⟩

theorem fills_starForm (ps : List Spec.Piece) : Spec.Fills ps (starForm ps) := by
  induction ps with
  | nil => exact .nil
  | cons p ps ih =>
    cases p with
    | text s => exact .text s ih
    | placeholder n => exact .placeholder n ['*'] ih

theorem split_at_space {a b x y : List Char} (ha : ' ' ∉ a) (hb : ' ' ∉ b)
    (h : a ++ ' ' :: x = b ++ ' ' :: y) : a = b ∧ x = y := by
  induction a generalizing b with
  | nil =>
    cases b with
    | nil => simpa using h
    | cons c b => simp at h; exact absurd h.1 (by rintro rfl; simp at hb)
  | cons c a ih =>
    cases b with
    | nil => simp at h; exact absurd h.1 (by rintro rfl; simp at ha)
    | cons d b =>
      simp only [List.cons_append, List.cons.injEq] at h
      obtain ⟨rfl, h⟩ := h
      obtain ⟨rfl, rfl⟩ := ih (by intro hc; exact ha (by simp [hc])) (by intro hc; exact hb (by simp [hc])) h
      exact ⟨rfl, rfl⟩

theorem method_name_plain (m : RestMethod) :
    ' ' ∉ m.name.toList ∧ '{' ∉ m.name.toList ∧ ∀ c ∈ m.name.toList, Plain c := by
  cases m <;> decide +kernel

theorem method_name_inj {m m' : RestMethod} (h : m.name = m'.name) : m = m' := by
  revert h; cases m <;> cases m' <;> decide +kernel

/-- `METHOD path`, the text by which requests are dispatched. -/
def routeText (m : RestMethod) (path : String) : String := m.name ++ " " ++ path

theorem routeText_toList (m : RestMethod) (path : String) :
    (routeText m path).toList = (m.name.toList ++ [' ']) ++ path.toList := by
  simp [routeText]

theorem wildcard_routeText (m : RestMethod) (path : String) :
    wildcard (routeText m path) = routeText m (wildcard path) := by
  apply String.toList_inj.1
  have h : '{' ∉ m.name.toList ++ [' '] := by
    have := (method_name_plain m).2.1
    simp [this]
  rw [routeText_toList]
  unfold wildcard
  rw [String.toList_ofList, routeText_toList, String.toList_ofList, subBraces_plain _ _ h _ (le_refl _)]
  rw [List.length_append (as := m.name.toList ++ [' ']), Nat.add_sub_cancel_left]

theorem fnmatch_routeText (m m' : RestMethod) (path pat : String) :
    fnmatch (routeText m path) (routeText m' pat) = true ↔ m = m' ∧ fnmatch path pat = true := by
  unfold fnmatch
  rw [routeText_toList, routeText_toList]
  have hp : ∀ c ∈ m'.name.toList ++ [' '], Plain c := by
    intro c hc
    rcases List.mem_append.1 hc with hc | hc
    · exact (method_name_plain m').2.2 c hc
    · rw [List.mem_singleton.1 hc]; decide
  rw [translate_plain _ _ hp _ (le_refl _), matchAll_lits]
  have hl : (m'.name.toList ++ [' '] ++ pat.toList).length - (m'.name.toList ++ [' ']).length = pat.toList.length := by
    rw [List.length_append (as := m'.name.toList ++ [' ']), Nat.add_sub_cancel_left]
  rw [hl]
  constructor
  · rintro ⟨b, hb, hm⟩
    have hb' : m.name.toList ++ ' ' :: path.toList = m'.name.toList ++ ' ' :: b := by simpa using hb
    obtain ⟨h1, rfl⟩ := split_at_space (method_name_plain m).1 (method_name_plain m').1 hb'
    exact ⟨method_name_inj (String.toList_inj.1 h1), hm⟩
  · rintro ⟨rfl, hm⟩
    exact ⟨_, rfl, hm⟩

theorem routeText_inj {m m' : RestMethod} {p p' : String} (h : routeText m p = routeText m' p') :
    m = m' ∧ p = p' := by
  have h := congrArg String.toList h
  rw [routeText_toList, routeText_toList] at h
  have h' : m.name.toList ++ ' ' :: p.toList = m'.name.toList ++ ' ' :: p'.toList := by simpa using h
  obtain ⟨h1, h2⟩ := split_at_space (method_name_plain m).1 (method_name_plain m').1 h'
  exact ⟨method_name_inj (String.toList_inj.1 h1), String.toList_inj.1 h2⟩

/-- C72: a handler is only ever called with requests for one of the routes it registered itself; in
particular with a method it registered.  And a request for a registered route is always passed to
some handler. -/
theorem C72_own_routes {handlers : List (H × List NamedRoute)} {reg : Registry H}
    (hb : Registry.build ⟨[], []⟩ handlers = .ok reg) (m : RestMethod) (path : String) :
    (∀ h, reg.dispatch (m.name ++ " " ++ path) = some h →
      ∃ routes r, (h, routes) ∈ handlers ∧ r ∈ routes ∧ ForRoute r m path) ∧
    ((∃ x ∈ handlers, ∃ r ∈ x.2, ForRoute r m path) → ∃ h, reg.dispatch (m.name ++ " " ++ path) = some h) := by
  have hn := (C71_constructed hb).1
  have hk : Spec.routeKey = NamedRoute.key := rfl
  rw [(C71_construction handlers).1 hn, hk] at hb
  cases hb
  have key : ∀ r : NamedRoute, wildcard r.key = routeText r.method (wildcard r.path) :=
    fun r => wildcard_routeText r.method r.path
  have mem : ∀ x : H × NamedRoute, x ∈ allRoutes handlers ↔ ∃ routes, (x.1, routes) ∈ handlers ∧ x.2 ∈ routes := by
    intro x
    simp only [allRoutes, List.mem_flatMap, List.mem_map]
    constructor
    · rintro ⟨y, hy, r, hr, rfl⟩; exact ⟨y.2, hy, hr⟩
    · rintro ⟨routes, hy, hr⟩; exact ⟨_, hy, x.2, hr, rfl⟩
  change (∀ h, Registry.dispatch _ (routeText m path) = some h → _) ∧ (_ → ∃ h, Registry.dispatch _ (routeText m path) = some h)
  constructor
  · intro h hd
    unfold Registry.dispatch at hd
    have : ∃ x ∈ allRoutes handlers, x.1 = h ∧
        (routeText m path = wildcard x.2.key ∨ fnmatch (routeText m path) (wildcard x.2.key) = true) := by
      split at hd
      · next h' hg =>
        cases hd
        obtain ⟨x, hx, he⟩ := List.mem_map.1 (Dict.get?_mem hg)
        simp only [Prod.mk.injEq] at he
        exact ⟨x, hx, he.2, .inl he.1.symm⟩
      · obtain ⟨k, hk, hm⟩ := firstMatch_some hd
        obtain ⟨x, hx, he⟩ := List.mem_map.1 hk
        simp only [Prod.mk.injEq] at he
        exact ⟨x, hx, he.2, .inr (by rw [he.1]; exact hm)⟩
    obtain ⟨x, hx, rfl, hm⟩ := this
    obtain ⟨routes, h1, h2⟩ := (mem x).1 hx
    refine ⟨routes, x.2, h1, h2, ?_⟩
    rw [key] at hm
    rcases hm with hm | hm
    · obtain ⟨rfl, rfl⟩ := routeText_inj hm; exact ⟨rfl, .inl rfl⟩
    · obtain ⟨e, hm⟩ := (fnmatch_routeText _ _ _ _).1 hm; exact ⟨e.symm, .inr hm⟩
  · rintro ⟨x, hx, r, hr, rfl, hp⟩
    have hx' : (x.1, r) ∈ allRoutes handlers := (mem (x.1, r)).2 ⟨x.2, hx, hr⟩
    have hin : (wildcard r.key, x.1) ∈ (allRoutes handlers).map (fun x => (wildcard x.2.key, x.1)) :=
      List.mem_map.2 ⟨_, hx', rfl⟩
    refine (C33_found_iff _ _).2 ?_
    rcases hp with rfl | hp
    · left
      refine ⟨x.1, ?_⟩
      have := (C71_constructed ((C71_construction handlers).1 hn)).2.2 _ hx'
      rw [hk] at this
      simp only [key] at this ⊢
      exact this
    · right
      refine ⟨_, hin, ?_⟩
      have e : fnmatch (routeText r.method path) (routeText r.method (wildcard r.path)) = true :=
        (fnmatch_routeText _ _ _ _).2 ⟨rfl, hp⟩
      rw [← key] at e
      exact e

example := C72_own_routes (handlers := [(1, [⟨.GET, "/a/{x}", "g"⟩, ⟨.PUT, "/a/{x}", "p"⟩]), (2, [⟨.GET, "/a", "h"⟩])]) rfl .GET "/a/b"

/-- C72, with C34: for a route whose path is a plain template, being for the route means having its
method and a path obtained by filling in the placeholders. -/
theorem C72_template (r : NamedRoute) (ps : List Spec.Piece) (hps : ∀ p ∈ ps, Spec.PieceOK p)
    (hr : r.path = String.ofList (Spec.templateText ps)) (m : RestMethod) (path : String) :
    ForRoute r m path ↔ r.method = m ∧ Spec.Fills ps path.toList := by
  unfold ForRoute
  rw [hr, C34_placeholders ps hps]
  refine and_congr_right fun _ => ⟨?_, .inr⟩
  rintro (h | h)
  · rw [h]
    unfold wildcard
    simp only [String.toList_ofList]
    rw [subBraces_template ps hps _ (le_refl _)]
    exact fills_starForm ps
  · exact h

example := C72_template ⟨.GET, "/a/{x}/b", "g"⟩ [.text "/a/".toList, .placeholder "x".toList, .text "/b".toList] (by decide +kernel) (by decide +kernel)
  .GET "/a/1/b"

end Verif
