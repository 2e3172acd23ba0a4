import Verif.Spec.Listen
/-!
# C117: where a host listens
-/

namespace Verif

/-- What is true of hosts and sockets in every reachable state. -/
private structure LInv (net : Net) (m : Machine) : Prop where
  own : ∀ (i : Nat) (h : HostObj) (s : Sock), m.hosts[i]? = some h → h.server = some s →
    h.port = some (s.port : Int) ∧ net.resolve h.address = some s.ip ∧ 1 ≤ s.port ∧ s.port ≤ 65535 ∧
      net.allowed s.ip s.port = true ∧ h.alive = true
  run : ∀ (i : Nat) (h : HostObj), m.hosts[i]? = some h → h.running = true → ∃ s, h.server = some s
  apart : ∀ (i j : Nat) (h k : HostObj) (s t : Sock), i ≠ j → m.hosts[i]? = some h → m.hosts[j]? = some k → h.server = some s → k.server = some t → ¬ s.Clash t
  foreign : ∀ (i : Nat) (h : HostObj) (s t : Sock), m.hosts[i]? = some h → h.server = some s → t ∈ m.others → ¬ s.Clash t

private theorem clash_symm {s t : Sock} (h : s.Clash t) : t.Clash s :=
  ⟨h.1.symm, h.2.elim (fun e => .inl e.symm) fun e => e.elim (fun e => .inr (.inr e)) fun e => .inr (.inl e)⟩

private theorem mem_sockets {m : Machine} {s : Sock} :
    s ∈ m.sockets ↔ (∃ i : Nat, ∃ h, m.hosts[i]? = some h ∧ h.server = some s) ∨ s ∈ m.others := by
  unfold Machine.sockets
  rw [List.mem_append, List.mem_filterMap]
  constructor
  · rintro (⟨h, hm, hs⟩ | h)
    · obtain ⟨i, hi⟩ := List.mem_iff_getElem?.1 hm
      exact .inl ⟨i, h, hi, hs⟩
    · exact .inr h
  · rintro (⟨i, h, hi, hs⟩ | h)
    · exact .inl ⟨h, List.mem_of_getElem? hi, hs⟩
    · exact .inr h

/-- What `listen` gives. -/
private theorem listen_ok {net : Net} {m : Machine} {h : HostObj} {pick : Nat} {s : Sock} :
    m.listen net h pick = .ok s ↔ net.resolve h.address = some s.ip ∧ 0 ≤ h.port.getD 0 ∧ h.port.getD 0 ≤ 65535 ∧
      s.port = (if h.port.getD 0 = 0 then pick else (h.port.getD 0).toNat) ∧ 1 ≤ s.port ∧ s.port ≤ 65535 ∧
      net.allowed s.ip s.port = true ∧ m.Free s := by
  unfold Machine.listen
  cases hr : net.resolve h.address with
  | none => simp
  | some ip =>
    dsimp only
    by_cases h1 : h.port.getD 0 < 0 ∨ 65535 < h.port.getD 0
    · rw [if_pos h1]; constructor
      · intro x; cases x
      · intro x; omega
    rw [if_neg h1]
    generalize hp : (if h.port.getD 0 = 0 then pick else (h.port.getD 0).toNat) = p
    by_cases h2 : p < 1 ∨ 65535 < p
    · rw [if_pos h2]; constructor
      · intro x; cases x
      · intro x; omega
    rw [if_neg h2]
    by_cases h3 : net.allowed ip p = false
    · rw [if_pos h3]; constructor
      · intro x; cases x
      · rintro ⟨e1, -, -, e2, -, -, e3, -⟩
        cases e1
        rw [e2, h3] at e3
        cases e3
    rw [if_neg h3]
    by_cases h4 : m.Free ⟨ip, p⟩
    · rw [if_pos h4]
      constructor
      · intro x
        cases x
        exact ⟨rfl, by omega, by omega, rfl, by show 1 ≤ p; omega, by show p ≤ 65535; omega, by
          cases hb : net.allowed ip p with
          | true => rfl
          | false => exact absurd hb h3, h4⟩
      · rintro ⟨e1, -, -, e2, -, -, -, -⟩
        cases e1
        rw [← e2]
    · rw [if_neg h4]; constructor
      · intro x; cases x
      · rintro ⟨e1, -, -, e2, -, -, -, e3⟩
        cases e1
        rw [← e2] at h4
        exact absurd e3 h4

private theorem set_some {l : List HostObj} {n i : Nat} {x y : HostObj} (h : (l.set n x)[i]? = some y) :
    (i = n ∧ y = x) ∨ (i ≠ n ∧ l[i]? = some y) := by
  by_cases e : i = n
  · subst e
    rw [List.getElem?_set] at h
    simp only [if_pos] at h
    split at h
    · cases h; exact .inl ⟨rfl, rfl⟩
    · cases h
  · rw [List.getElem?_set_ne (Ne.symm e)] at h
    exact .inr ⟨e, h⟩

private theorem set_self {l : List HostObj} {n : Nat} {x h : HostObj} (hn : l[n]? = some h) : (l.set n x)[n]? = some x := by
  have : n < l.length := (List.getElem?_eq_some_iff.1 hn).1
  simp [this]

private theorem run_cases (net : Net) (m : Machine) (n pick : Nat) :
    (m.run net n pick).1 = m ∨ ∃ h s, m.hosts[n]? = some h ∧ m.listen net h pick = .ok s ∧
      m.run net n pick = ({ m with hosts := m.hosts.set n { h with server := some s, port := some s.port, running := true } }, none) := by
  unfold Machine.run
  cases hn : m.hosts[n]? with
  | none => exact .inl rfl
  | some h =>
    dsimp only
    cases hl : m.listen net h pick with
    | error e => exact .inl rfl
    | ok s => exact .inr ⟨h, s, rfl, hl, rfl⟩

/-- A host's own socket keeps its place: a host that listens cannot be run again. -/
private theorem listen_again {net : Net} {m : Machine} (inv : LInv net m) {n : Nat} {h : HostObj} {s : Sock} (hn : m.hosts[n]? = some h)
    (hs : h.server = some s) (pick : Nat) : m.listen net h pick = .error .inUse := by
  obtain ⟨hp, hr, h1, h2, ha, -⟩ := inv.own n h s hn hs
  unfold Machine.listen
  rw [hr]
  dsimp only
  rw [hp]
  have e0 : (some (s.port : Int)).getD 0 = (s.port : Int) := rfl
  rw [e0, if_neg (by omega), if_neg (show ¬ (s.port : Int) = 0 by omega)]
  have e : (s.port : Int).toNat = s.port := Int.toNat_natCast s.port
  rw [e, if_neg (by omega), if_neg (by rw [ha]; simp), if_neg]
  intro hf
  exact hf s (mem_sockets.2 (.inl ⟨n, h, hn, hs⟩)) ⟨rfl, .inl rfl⟩

private theorem inv_set {net : Net} {m : Machine} (inv : LInv net m) {n : Nat} {h x : HostObj} (hn : m.hosts[n]? = some h)
    (hx : x.server = none ∨ x.server = h.server ∧ x.port = h.port ∧ x.address = h.address ∧ x.alive = h.alive) (hr : x.running = false) :
    LInv net { m with hosts := m.hosts.set n x } := by
  constructor
  · intro i y s hy hs
    rcases set_some hy with ⟨rfl, rfl⟩ | ⟨_, hy⟩
    · rcases hx with hx | ⟨hx, hp, ha, hl⟩
      · rw [hx] at hs; cases hs
      · rw [hx] at hs; rw [hp, ha, hl]; exact inv.own _ h s hn hs
    · exact inv.own i y s hy hs
  · intro i y hy hrun
    rcases set_some hy with ⟨rfl, rfl⟩ | ⟨_, hy⟩
    · rw [hr] at hrun; cases hrun
    · exact inv.run i y hy hrun
  · intro i j a b s t hij ha hb hs ht
    rcases set_some ha with ⟨rfl, rfl⟩ | ⟨hi, ha'⟩ <;> rcases set_some hb with ⟨rfl, rfl⟩ | ⟨hj, hb⟩
    · exact absurd rfl hij
    · rcases hx with hx | ⟨hx, -⟩
      · rw [hx] at hs; cases hs
      · rw [hx] at hs; exact inv.apart _ j h b s t hij hn hb hs ht
    · rcases hx with hx | ⟨hx, -⟩
      · rw [hx] at ht; cases ht
      · rw [hx] at ht; exact inv.apart i _ a h s t hij ha' hn hs ht
    · exact inv.apart i j a b s t hij ha' hb hs ht
  · intro i a s t ha hs ht
    rcases set_some ha with ⟨rfl, rfl⟩ | ⟨hi, ha⟩
    · rcases hx with hx | ⟨hx, -⟩
      · rw [hx] at hs; cases hs
      · rw [hx] at hs; exact inv.foreign _ h s t hn hs ht
    · exact inv.foreign i a s t ha hs ht

private theorem inv_step {net : Net} {m m' : Machine} (inv : LInv net m) (e : NetEvent) (h : m.step net e = some m') : LInv net m' := by
  cases e with
  | create address port =>
    cases h
    have old : ∀ (i : Nat) (x : HostObj) (s : Sock), (m.hosts ++ [{ address := address, port := port }])[i]? = some x → x.server = some s →
        m.hosts[i]? = some x := by
      intro i x s hi hs
      rcases Nat.lt_or_ge i m.hosts.length with hl | hl
      · rwa [List.getElem?_append_left hl] at hi
      · rw [List.getElem?_append_right hl] at hi
        have : x = ({ address := address, port := port } : HostObj) := by
          have := List.mem_of_getElem? hi
          simpa using this
        rw [this] at hs; cases hs
    constructor
    · intro i x s hi hs; exact inv.own i x s (old i x s hi hs) hs
    · intro i x hi hr
      rcases Nat.lt_or_ge i m.hosts.length with hl | hl
      · have hi : (m.hosts ++ [({ address := address, port := port } : HostObj)])[i]? = some x := hi
        rw [List.getElem?_append_left hl] at hi
        exact inv.run i x hi hr
      · have hi : (m.hosts ++ [({ address := address, port := port } : HostObj)])[i]? = some x := hi
        rw [List.getElem?_append_right hl] at hi
        have : x = ({ address := address, port := port } : HostObj) := by
          have := List.mem_of_getElem? hi
          simpa using this
        rw [this] at hr; cases hr
    · intro i j a b s t hij ha hb hs ht
      exact inv.apart i j a b s t hij (old i a s ha hs) (old j b t hb ht) hs ht
    · intro i a s t ha hs ht; exact inv.foreign i a s t (old i a s ha hs) hs ht
  | run n pick =>
    unfold Machine.step at h
    dsimp only at h
    cases hn : m.hosts[n]? with
    | none => rw [hn] at h; cases h
    | some x =>
      rw [hn] at h
      dsimp only at h
      by_cases ha : x.alive = true
      · rw [if_pos ha] at h
        cases h
        rcases run_cases net m n pick with he | ⟨x', s, hx', hl, he⟩
        · rw [he]; exact inv
        · rw [hn] at hx'; cases hx'
          rw [he]
          obtain ⟨hr, h0, h1, hp, h2, h3, hal, hf⟩ := listen_ok.1 hl
          constructor
          · intro i y t hy hs
            rcases set_some hy with ⟨rfl, rfl⟩ | ⟨_, hy⟩
            · cases hs; exact ⟨rfl, hr, h2, h3, hal, ha⟩
            · exact inv.own i y t hy hs
          · intro i y hy hrun
            rcases set_some hy with ⟨rfl, rfl⟩ | ⟨_, hy⟩
            · exact ⟨s, rfl⟩
            · exact inv.run i y hy hrun
          · intro i j a b u v hij hya hyb hu hv
            rcases set_some hya with ⟨rfl, rfl⟩ | ⟨hi, hya'⟩ <;> rcases set_some hyb with ⟨rfl, rfl⟩ | ⟨hj, hyb⟩
            · exact absurd rfl hij
            · cases hu; exact hf v (mem_sockets.2 (.inl ⟨j, b, hyb, hv⟩))
            · cases hv; exact fun c => hf u (mem_sockets.2 (.inl ⟨i, a, hya', hu⟩)) (clash_symm c)
            · exact inv.apart i j a b u v hij hya' hyb hu hv
          · intro i a u v hya hu hv
            rcases set_some hya with ⟨rfl, rfl⟩ | ⟨hi, hya⟩
            · cases hu; exact hf v (mem_sockets.2 (.inr hv))
            · exact inv.foreign i a u v hya hu hv
      · rw [if_neg ha] at h; cases h
  | ended n =>
    unfold Machine.step at h
    dsimp only at h
    cases hn : m.hosts[n]? with
    | none => rw [hn] at h; cases h
    | some x =>
      rw [hn] at h
      dsimp only at h
      by_cases hr : x.running = true
      · rw [if_pos hr] at h; cases h
        exact inv_set inv hn (.inr ⟨rfl, rfl, rfl, rfl⟩) rfl
      · rw [if_neg hr] at h; cases h
  | dropped n =>
    unfold Machine.step at h
    dsimp only at h
    cases hn : m.hosts[n]? with
    | none => rw [hn] at h; cases h
    | some x =>
      rw [hn] at h
      dsimp only at h
      by_cases hr : x.running = false
      · rw [if_pos hr] at h; cases h
        exact inv_set inv hn (.inl rfl) hr
      · rw [if_neg hr] at h; cases h
  | opened s =>
    unfold Machine.step at h
    dsimp only at h
    by_cases hf : m.Free s
    · rw [if_pos hf] at h; cases h
      refine ⟨inv.own, inv.run, inv.apart, fun i a u v ha hu hv => ?_⟩
      rcases List.mem_cons.1 hv with rfl | hv
      · exact fun c => hf u (mem_sockets.2 (.inl ⟨i, a, ha, hu⟩)) (clash_symm c)
      · exact inv.foreign i a u v ha hu hv
    · rw [if_neg hf] at h; cases h
  | closed s =>
    cases h
    exact ⟨inv.own, inv.run, inv.apart, fun i a u v ha hu hv => inv.foreign i a u v ha hu (List.mem_of_mem_erase hv)⟩

private theorem inv_steps {net : Net} : ∀ (es : List NetEvent) {m m' : Machine}, LInv net m → Machine.steps net m es = some m' → LInv net m'
  | [], _, _, inv, h => by cases h; exact inv
  | e :: es, m, m', inv, h => by
    unfold Machine.steps at h
    cases he : m.step net e with
    | none => rw [he] at h; cases h
    | some m1 => rw [he] at h; exact inv_steps es (inv_step inv e he) h

private theorem inv_reachable {net : Net} {m : Machine} (h : m.Reachable net) : LInv net m := by
  obtain ⟨es, h⟩ := h
  refine inv_steps es ?_ h
  constructor <;> intros <;> simp_all

private theorem at_clash {s t : Sock} {ip port : Nat} (hs : s.At ip port) (ht : t.At ip port) : s.Clash t := by
  refine ⟨hs.1.trans ht.1.symm, ?_⟩
  rcases hs.2 with h | h
  · rcases ht.2 with h' | h'
    · exact .inl (h.trans h'.symm)
    · exact .inr (.inr h')
  · exact .inr (.inl h)

/-- What a peer meets at an address and port is one thing. -/
theorem C117_met {net : Net} {m : Machine} (hm : m.Reachable net) (ip port : Nat) (x y : Met) (hx : m.meets ip port x)
    (hy : m.meets ip port y) : x = y := by
  have inv := inv_reachable hm
  have same : ∀ (i j : Nat) (h k : HostObj) (s t : Sock), m.hosts[i]? = some h → m.hosts[j]? = some k → h.server = some s →
      k.server = some t → s.At ip port → t.At ip port → i = j ∧ h = k := by
    intro i j h k s t hi hj hs ht as at'
    by_cases e : i = j
    · subst e; rw [hi] at hj; cases hj; exact ⟨rfl, rfl⟩
    · exact absurd (at_clash as at') (inv.apart i j h k s t e hi hj hs ht)
  have apart : ∀ (i : Nat) (h : HostObj) (s t : Sock), m.hosts[i]? = some h → h.server = some s → t ∈ m.others →
      s.At ip port → t.At ip port → False :=
    fun i h s t hi hs ht as at' => inv.foreign i h s t hi hs ht (at_clash as at')
  cases x with
  | host n =>
    obtain ⟨h, s, hn, hs, as, hr⟩ := hx
    cases y with
    | host n' =>
      obtain ⟨k, t, hk, ht, at', _⟩ := hy
      rw [(same n n' h k s t hn hk hs ht as at').1]
    | silence =>
      obtain ⟨n', k, t, hk, ht, at', hr'⟩ := hy
      rw [(same n n' h k s t hn hk hs ht as at').2, hr'] at hr
      cases hr
    | other => obtain ⟨t, ht, at'⟩ := hy; exact (apart n h s t hn hs ht as at').elim
    | refused => exact absurd as (hy s (mem_sockets.2 (.inl ⟨n, h, hn, hs⟩)))
  | silence =>
    obtain ⟨n, h, s, hn, hs, as, hr⟩ := hx
    cases y with
    | host n' =>
      obtain ⟨k, t, hk, ht, at', hr'⟩ := hy
      rw [(same n n' h k s t hn hk hs ht as at').2, hr'] at hr
      cases hr
    | silence => rfl
    | other => obtain ⟨t, ht, at'⟩ := hy; exact (apart n h s t hn hs ht as at').elim
    | refused => exact absurd as (hy s (mem_sockets.2 (.inl ⟨n, h, hn, hs⟩)))
  | other =>
    obtain ⟨t, ht, at'⟩ := hx
    cases y with
    | host n => obtain ⟨h, s, hn, hs, as, _⟩ := hy; exact (apart n h s t hn hs ht as at').elim
    | silence => obtain ⟨n, h, s, hn, hs, as, _⟩ := hy; exact (apart n h s t hn hs ht as at').elim
    | other => rfl
    | refused => exact absurd at' (hy t (mem_sockets.2 (.inr ht)))
  | refused =>
    cases y with
    | host n => obtain ⟨h, s, hn, hs, as, _⟩ := hy; exact absurd as (hx s (mem_sockets.2 (.inl ⟨n, h, hn, hs⟩)))
    | silence => obtain ⟨n, h, s, hn, hs, as, _⟩ := hy; exact absurd as (hx s (mem_sockets.2 (.inl ⟨n, h, hn, hs⟩)))
    | other => obtain ⟨t, ht, at'⟩ := hy; exact absurd at' (hx t (mem_sockets.2 (.inr ht)))
    | refused => rfl

/-- C117: while a host runs, its attribute `port` is a port number, and a peer that connects to that port, at the address that the host
was given, meets this host. -/
theorem C117_running {net : Net} {m : Machine} (hm : m.Reachable net) {n : Nat} {h : HostObj} (hn : m.hosts[n]? = some h)
    (hr : h.running = true) : ∃ ip p : Nat, h.port = some (p : Int) ∧ 1 ≤ p ∧ p ≤ 65535 ∧ net.resolve h.address = some ip ∧
      m.meets ip p (.host n) := by
  have inv := inv_reachable hm
  obtain ⟨s, hs⟩ := inv.run n h hn hr
  obtain ⟨hp, ha, h1, h2, -, -⟩ := inv.own n h s hn hs
  exact ⟨s.ip, s.port, hp, h1, h2, ha, h, s, hn, hs, ⟨rfl, .inl rfl⟩, hr⟩

/-- C117: two running hosts at one address have different ports. -/
theorem C117_apart {net : Net} {m : Machine} (hm : m.Reachable net) {i j : Nat} {h k : HostObj} (hi : m.hosts[i]? = some h)
    (hj : m.hosts[j]? = some k) (hr : h.running = true) (kr : k.running = true) (ha : net.resolve h.address = net.resolve k.address)
    (hp : h.port = k.port) : i = j := by
  obtain ⟨ip, p, hp1, -, -, ha1, hm1⟩ := C117_running hm hi hr
  obtain ⟨ip', p', hp2, -, -, ha2, hm2⟩ := C117_running hm hj kr
  rw [ha1, ha2] at ha
  cases ha
  rw [hp1, hp2] at hp
  have hp : (p : Int) = p' := by injection hp
  have : p = p' := by omega
  subst this
  have := C117_met hm _ _ _ _ hm1 hm2
  cases this
  rfl

/-- C117: exactly when `async_run` of a host starts: the address has an IPv4 address, the port asked for is free and allowed and, if
none is asked for, the one that the system picks. -/
theorem C117_starts (net : Net) (m : Machine) {n : Nat} {h : HostObj} (hn : m.hosts[n]? = some h) (pick : Nat) :
    (m.run net n pick).2 = none ↔ ∃ ip p : Nat, net.resolve h.address = some ip ∧
      (h.port = some (p : Int) ∨ (h.port = none ∨ h.port = some 0) ∧ p = pick) ∧ 1 ≤ p ∧ p ≤ 65535 ∧
      net.allowed ip p = true ∧ ∀ s ∈ m.sockets, ¬ s.Clash ⟨ip, p⟩ := by
  have key : (m.run net n pick).2 = none ↔ ∃ s, m.listen net h pick = .ok s := by
    unfold Machine.run
    rw [hn]
    dsimp only
    cases m.listen net h pick with
    | error e => simp
    | ok s => simp
  rw [key]
  constructor
  · rintro ⟨s, hs⟩
    obtain ⟨hr, h0, h1, hp, h2, h3, ha, hf⟩ := listen_ok.1 hs
    refine ⟨s.ip, s.port, hr, ?_, h2, h3, ha, fun t ht c => hf t ht (clash_symm c)⟩
    cases hport : h.port with
    | none => rw [hport] at hp; exact .inr ⟨.inl rfl, hp⟩
    | some p =>
      rw [hport] at hp h0
      have hp : s.port = if p = 0 then pick else p.toNat := hp
      have h0 : 0 ≤ p := h0
      by_cases hz : p = 0
      · rw [if_pos hz] at hp; exact .inr ⟨.inr (by rw [hz]), hp⟩
      · rw [if_neg hz] at hp; exact .inl (by rw [hp, Int.toNat_of_nonneg h0])
  · rintro ⟨ip, p, hr, hp, h1, h2, ha, hf⟩
    refine ⟨⟨ip, p⟩, listen_ok.2 ⟨hr, ?_, ?_, ?_, h1, h2, ha, fun t ht c => hf t ht (clash_symm c)⟩⟩
    · rcases hp with hp | ⟨hp | hp, -⟩ <;> rw [hp] <;> simp
    · rcases hp with hp | ⟨hp | hp, -⟩ <;> rw [hp] <;> simp; omega
    · rcases hp with hp | ⟨hp | hp, he⟩
      · rw [hp]
        have e : (some (p : Int)).getD 0 = (p : Int) := rfl
        rw [e, if_neg (by omega), Int.toNat_natCast]
      · rw [hp]; exact he
      · rw [hp]; exact he

/-- C117: a host that starts listens at the port it asked for, if it asked for one, and at the picked one otherwise; the attribute `port` is
that port, and nothing else changes. -/
theorem C117_started (net : Net) (m : Machine) {n : Nat} {h : HostObj} (hn : m.hosts[n]? = some h) (pick : Nat)
    (hs : (m.run net n pick).2 = none) : ∃ (h' : HostObj) (ip p : Nat), (m.run net n pick).1.hosts[n]? = some h' ∧
      net.resolve h.address = some ip ∧ h'.server = some ⟨ip, p⟩ ∧ h'.port = some (p : Int) ∧ h'.running = true ∧
      h'.address = h.address ∧ (h.port = some (p : Int) ∨ (h.port = none ∨ h.port = some 0) ∧ p = pick) ∧
      (m.run net n pick).1.meets ip p (.host n) ∧
      (∀ i, i ≠ n → (m.run net n pick).1.hosts[i]? = m.hosts[i]?) ∧ (m.run net n pick).1.others = m.others := by
  rcases run_cases net m n pick with he | ⟨x, s, hx, hl, he⟩
  · exfalso
    obtain ⟨ip, p, hr, hp, h1, h2, ha, hf⟩ := (C117_starts net m hn pick).1 hs
    unfold Machine.run at hs he
    rw [hn] at hs he
    dsimp only at hs he
    cases hl : m.listen net h pick with
    | error e => rw [hl] at hs; cases hs
    | ok s =>
      rw [hl] at he
      have e : m.hosts.set n { h with server := some s, port := some (s.port : Int), running := true } = m.hosts :=
        congrArg Machine.hosts he
      have e1 := set_self (x := { h with server := some s, port := some (s.port : Int), running := true }) hn
      rw [e, hn] at e1
      have e2 : h.server = some s := by injection e1 with e1; rw [e1]
      exact (listen_ok.1 hl).2.2.2.2.2.2.2 s (mem_sockets.2 (.inl ⟨n, h, hn, e2⟩)) ⟨rfl, .inl rfl⟩
  · rw [hn] at hx; cases hx
    rw [he]
    obtain ⟨ip, p, hr, hp, h1, h2, ha, hf⟩ := (C117_starts net m hn pick).1 hs
    obtain ⟨hr', h0, h1', hp', h2', h3', ha', hf'⟩ := listen_ok.1 hl
    have hi : s.ip = ip := by rw [hr] at hr'; injection hr' with e; exact e.symm
    have hpp : s.port = p := by
      rw [hp']
      rcases hp with hp | ⟨hp | hp, e⟩
      · rw [hp]
        have e : (some (p : Int)).getD 0 = (p : Int) := rfl
        rw [e, if_neg (by omega), Int.toNat_natCast]
      · rw [hp]; exact e.symm
      · rw [hp]; exact e.symm
    have es : s = ⟨ip, p⟩ := by cases s; cases hi; cases hpp; rfl
    subst es
    have hself := set_self (x := { h with server := some (⟨ip, p⟩ : Sock), port := some (p : Int), running := true }) hn
    refine ⟨_, ip, p, hself, hr, rfl, rfl, rfl, rfl, hp, ⟨_, _, hself, rfl, ⟨rfl, .inl rfl⟩, rfl⟩, fun i hi => ?_, rfl⟩
    exact List.getElem?_set_ne (Ne.symm hi)

/-- C117: if starting raises, everything is as before. -/
theorem C117_raised (net : Net) (m : Machine) (n pick : Nat) (h : (m.run net n pick).2 ≠ none) : (m.run net n pick).1 = m := by
  rcases run_cases net m n pick with he | ⟨x, s, hx, hl, he⟩
  · exact he
  · rw [he] at h; exact absurd rfl h

/-- A host that listens goes on listening at its place until it is dropped, and does not run again. -/
private theorem kept_step {net : Net} {m1 m' : Machine} (inv1 : LInv net m1) {n : Nat} {s : Sock} {e : NetEvent} (hst : m1.step net e = some m')
    (hd : e ≠ .dropped n) {x : HostObj} (hx : m1.hosts[n]? = some x) (hxs : x.server = some s) :
    ∃ y, m'.hosts[n]? = some y ∧ y.server = some s ∧ (x.running = false → y.running = false) := by
  have hxr : x.running = false → x.running = false := id
  cases e with
  | create address port =>
    cases hst
    exact ⟨x, by
      show (m1.hosts ++ [_])[n]? = some x
      rw [List.getElem?_append_left (List.getElem?_eq_some_iff.1 hx).1]; exact hx, hxs, hxr⟩
  | run i pick =>
    unfold Machine.step at hst
    dsimp only at hst
    cases hi : m1.hosts[i]? with
    | none => rw [hi] at hst; cases hst
    | some y =>
      rw [hi] at hst
      dsimp only at hst
      by_cases hal : y.alive = true
      · rw [if_pos hal] at hst
        cases hst
        rcases run_cases net m1 i pick with he | ⟨z, t, hz, hl, he⟩
        · rw [he]; exact ⟨x, hx, hxs, hxr⟩
        · by_cases hin : i = n
          · subst hin
            rw [hx] at hz; cases hz
            rw [listen_again inv1 hx hxs] at hl
            cases hl
          · rw [he]
            exact ⟨x, by rw [← hx]; exact List.getElem?_set_ne hin, hxs, hxr⟩
      · rw [if_neg hal] at hst; cases hst
  | ended i =>
    unfold Machine.step at hst
    dsimp only at hst
    cases hi : m1.hosts[i]? with
    | none => rw [hi] at hst; cases hst
    | some y =>
      rw [hi] at hst
      dsimp only at hst
      by_cases hal : y.running = true
      · rw [if_pos hal] at hst
        cases hst
        by_cases hin : i = n
        · subst hin
          rw [hx] at hi; cases hi
          exact ⟨_, set_self hx, hxs, fun _ => rfl⟩
        · exact ⟨x, by rw [← hx]; exact List.getElem?_set_ne hin, hxs, hxr⟩
      · rw [if_neg hal] at hst; cases hst
  | dropped i =>
    unfold Machine.step at hst
    dsimp only at hst
    cases hi : m1.hosts[i]? with
    | none => rw [hi] at hst; cases hst
    | some y =>
      rw [hi] at hst
      dsimp only at hst
      by_cases hal : y.running = false
      · rw [if_pos hal] at hst
        cases hst
        by_cases hin : i = n
        · subst hin
          exact absurd rfl hd
        · exact ⟨x, by rw [← hx]; exact List.getElem?_set_ne hin, hxs, hxr⟩
      · rw [if_neg hal] at hst; cases hst
  | opened t =>
    unfold Machine.step at hst
    dsimp only at hst
    by_cases hf : m1.Free t
    · rw [if_pos hf] at hst; cases hst; exact ⟨x, hx, hxs, hxr⟩
    · rw [if_neg hf] at hst; cases hst
  | closed t => cases hst; exact ⟨x, hx, hxs, hxr⟩

private theorem kept_steps {net : Net} : ∀ (es : List NetEvent) {m1 m2 : Machine}, LInv net m1 → Machine.steps net m1 es = some m2 →
    ∀ {n : Nat} {s : Sock} {x : HostObj}, .dropped n ∉ es → m1.hosts[n]? = some x → x.server = some s →
    ∃ y, m2.hosts[n]? = some y ∧ y.server = some s ∧ (x.running = false → y.running = false)
  | [], _, _, _, h, _, _, x, _, hx, hs => by cases h; exact ⟨x, hx, hs, id⟩
  | e :: es, m1, m2, inv, h, n, s, x, hd, hx, hs => by
    unfold Machine.steps at h
    cases hst : m1.step net e with
    | none => rw [hst] at h; cases h
    | some m' =>
      rw [hst] at h
      obtain ⟨y, hy, hys, hyr⟩ := kept_step inv hst (fun e => hd (e ▸ List.mem_cons_self ..)) hx hs
      obtain ⟨z, hz, hzs, hzr⟩ := kept_steps es (inv_step inv _ hst) h (fun e => hd (List.mem_cons_of_mem _ e)) hy hys
      exact ⟨z, hz, hzs, fun a => hzr (hyr a)⟩

/-- C117 is false after the end of a run: whatever happens then, as long as the host is referred to, peers that connect to its port at
its address are neither served nor refused. -/
theorem C117_stopped_violated {net : Net} {m : Machine} (hm : m.Reachable net) {n : Nat} {h : HostObj} (hn : m.hosts[n]? = some h)
    (hr : h.running = true) {m1 m2 : Machine} (he : m.step net (.ended n) = some m1) {es : List NetEvent}
    (hes : Machine.steps net m1 es = some m2) (hd : .dropped n ∉ es) :
    ∃ ip p : Nat, h.port = some (p : Int) ∧ net.resolve h.address = some ip ∧ m2.meets ip p .silence := by
  have inv := inv_reachable hm
  obtain ⟨s, hs⟩ := inv.run n h hn hr
  obtain ⟨hp, ha, -⟩ := inv.own n h s hn hs
  refine ⟨s.ip, s.port, hp, ha, ?_⟩
  have inv1 := inv_step inv _ he
  have h1 : ∃ x, m1.hosts[n]? = some x ∧ x.server = some s ∧ x.running = false := by
    unfold Machine.step at he
    dsimp only at he
    rw [hn] at he
    dsimp only at he
    rw [if_pos hr] at he
    cases he
    exact ⟨_, set_self hn, hs, rfl⟩
  obtain ⟨x, hx, hxs, hxr⟩ := h1
  obtain ⟨y, hy, hys, hyr⟩ := kept_steps es inv1 hes hd hx hxs
  exact ⟨n, y, s, hy, hys, ⟨rfl, .inl rfl⟩, hyr hxr⟩

/-- C117 is false of a second run: a host that has listened once raises `OSError` (EADDRINUSE) whenever it is run again, because of its own
old socket. -/
theorem C117_again_violated {net : Net} {m m1 m2 : Machine} (hm : m.Reachable net) {n pick : Nat} (hn : n < m.hosts.length)
    (hs : (m.run net n pick).2 = none) (h1 : m.step net (.run n pick) = some m1) {es : List NetEvent}
    (hes : Machine.steps net m1 es = some m2) (hd : .dropped n ∉ es) (pick' : Nat) :
    (m2.run net n pick').2 = some .inUse := by
  obtain ⟨h, hh⟩ : ∃ h, m.hosts[n]? = some h := ⟨_, List.getElem?_eq_getElem hn⟩
  have inv1 := inv_step (inv_reachable hm) _ h1
  have e1 : m1 = (m.run net n pick).1 := by
    unfold Machine.step at h1
    dsimp only at h1
    rw [hh] at h1
    dsimp only at h1
    by_cases ha : h.alive = true
    · rw [if_pos ha] at h1; injection h1 with h1; exact h1.symm
    · rw [if_neg ha] at h1; cases h1
  obtain ⟨x, ip, p, hx, -, hxs, -⟩ := C117_started net m hh pick hs
  rw [← e1] at hx
  obtain ⟨y, hy, hys, -⟩ := kept_steps es inv1 hes hd hx hxs
  unfold Machine.run
  rw [hy]
  dsimp only
  rw [listen_again (inv_steps es inv1 hes) hy hys]

/-- C117, what holds instead: when the last reference to a host that does not run goes, peers are refused at its place, and any host with
that address and port can be run. -/
theorem C117_released_partial {net : Net} {m m1 : Machine} (hm : m.Reachable net) {n : Nat} {h : HostObj} (hn : m.hosts[n]? = some h)
    {s : Sock} (hs : h.server = some s) (h1 : m.step net (.dropped n) = some m1) :
    m1.meets s.ip s.port .refused ∧ ∀ (k : Nat) (hk : HostObj) (pick : Nat), m1.hosts[k]? = some hk →
      net.resolve hk.address = net.resolve h.address → hk.port = h.port → (m1.run net k pick).2 = none := by
  have inv := inv_reachable hm
  obtain ⟨hp, ha, hp1, hp2, hal, -⟩ := inv.own n h s hn hs
  unfold Machine.step at h1
  dsimp only at h1
  rw [hn] at h1
  dsimp only at h1
  by_cases hr : h.running = false
  · rw [if_pos hr] at h1
    cases h1
    have free : ∀ t ∈ Machine.sockets { m with hosts := m.hosts.set n { h with server := none, alive := false } }, ¬ s.Clash t := by
      intro t ht
      rcases mem_sockets.1 ht with ⟨i, x, hx, hxt⟩ | ht
      · rcases set_some hx with ⟨-, rfl⟩ | ⟨hi, hx⟩
        · cases hxt
        · exact inv.apart n i h x s t (Ne.symm hi) hn hx hs hxt
      · exact inv.foreign n h s t hn hs ht
    refine ⟨fun t ht hat => free t ht (at_clash ⟨rfl, .inl rfl⟩ hat), fun k hk pick hkk hka hkp => ?_⟩
    refine (C117_starts net _ hkk pick).2 ⟨s.ip, s.port, hka.trans ha, .inl (hkp.trans hp), hp1, hp2, hal, fun t ht c => ?_⟩
    exact free t ht (clash_symm c)
  · rw [if_neg hr] at h1; cases h1

/-- A machine with one network name, on which everything may be bound. -/
def sampleNet : Net := { resolve := fun a => if a = "localhost" then some 2130706433 else none, allowed := fun _ _ => true }

/-- Two hosts are run, the first with the port that the system picks. -/
def sampleRuns : List NetEvent := [.create "localhost" none, .create "localhost" (some 1234), .run 0 40000, .run 1 0]

def sampleMachine : Machine :=
  { hosts := [{ port := some 40000, server := some ⟨2130706433, 40000⟩, running := true },
              { port := some 1234, server := some ⟨2130706433, 1234⟩, running := true }] }

theorem sampleMachine_reachable : sampleMachine.Reachable sampleNet := ⟨sampleRuns, by decide +kernel⟩

example := C117_met sampleMachine_reachable 2130706433 1234 (.host 1) (.host 1) ⟨_, ⟨2130706433, 1234⟩, rfl, rfl, by decide, rfl⟩
  (⟨_, ⟨2130706433, 1234⟩, rfl, rfl, by decide, rfl⟩ : sampleMachine.meets 2130706433 1234 (.host 1))
example := C117_running sampleMachine_reachable (n := 0) rfl rfl
example : 0 = 0 := C117_apart sampleMachine_reachable (i := 0) (j := 0) rfl rfl rfl rfl rfl rfl
example := (C117_starts sampleNet { hosts := [{}] } (n := 0) rfl 40000).2
  ⟨2130706433, 40000, by decide +kernel, .inr ⟨.inl rfl, rfl⟩, by decide, by decide, rfl, by decide⟩
example := C117_started sampleNet { hosts := [{}] } (n := 0) rfl 40000 (by decide +kernel)
/-- A host with a name that has no address. -/
example := C117_raised sampleNet { hosts := [{ address := "nowhere" }] } 0 40000 (by decide +kernel)
example := C117_stopped_violated sampleMachine_reachable (n := 0) rfl rfl rfl (es := [.run 0 5, .create "localhost" none, .closed ⟨1, 2⟩])
  (m2 := { hosts := [{ port := some 40000, server := some ⟨2130706433, 40000⟩ },
                     { port := some 1234, server := some ⟨2130706433, 1234⟩, running := true }, {}] })
  (by decide +kernel) (by decide)
example := C117_again_violated (m := { hosts := [{}] }) (net := sampleNet) ⟨[.create "localhost" none], rfl⟩ (n := 0) (pick := 40000)
  (by decide) (by decide +kernel) (m1 := { hosts := [{ port := some 40000, server := some ⟨2130706433, 40000⟩, running := true }] })
  (by decide +kernel) (es := [.ended 0]) (m2 := { hosts := [{ port := some 40000, server := some ⟨2130706433, 40000⟩ }] })
  (by decide +kernel) (by decide) 7
example := C117_released_partial (net := sampleNet) (m := { hosts := [{ port := some 40000, server := some ⟨2130706433, 40000⟩ }] })
  ⟨[.create "localhost" none, .run 0 40000, .ended 0], by decide +kernel⟩ (n := 0) rfl rfl
  (m1 := { hosts := [{ port := some 40000, alive := false }] }) (by decide +kernel)

end Verif
