import Verif.Lemmas.Proto
/-! # The invariants proper -/
namespace SL
open Spec

theorem lt_of_getElem? {α : Type} {l : List α} {i : Nat} {x : α} (h : l[i]? = some x) : i < l.length := by
  rcases Nat.lt_or_ge i l.length with h2 | h2
  · exact h2
  · rw [List.getElem?_eq_none h2] at h; simp at h

theorem getElem?_append_one {α : Type} (l : List α) (x : α) (i : Nat) :
    (l ++ [x])[i]? = if i < l.length then l[i]? else if i = l.length then some x else none := by
  split
  · rename_i h; rw [List.getElem?_append_left h]
  · rename_i h
    split
    · rename_i h2; subst h2; simp
    · rw [List.getElem?_eq_none]; simp; omega

/-- Numbering of requests, and the table of requests that can still be answered. -/
structure InvIds (p : Proto) : Prop where
  nextId : p.nextId = p.futs.length % 32767
  calls : p.calls.length = p.futs.length
  idsLen : p.ids.length = p.futs.length
  issued : p.issuedAt.length = p.futs.length
  ids : ∀ n, n < p.futs.length → p.ids[n]? = some (n % 32767)
  nodup : (akeys p.coll).Nodup
  coll : ∀ k f, (k, f) ∈ p.coll → f < p.futs.length ∧ k = ((f % 32767 : Nat) : Int) ∧
    p.futs.length ≤ f + 32767 ∧ ∀ m, p.futs[f]? ≠ some (.result m)
  tracked : ∀ (f : Nat), p.futs[f]? = some .pending → p.futs.length ≤ f + 32767 →
    aget ((f % 32767 : Nat) : Int) p.coll = some f

theorem InvIds.init : InvIds {} := by
  constructor <;> simp [akeys]

/-- `InvIds` only looks at these fields. -/
theorem InvIds.congr {p q : Proto} (h : InvIds p) (h1 : q.futs = p.futs) (h2 : q.nextId = p.nextId)
    (h3 : q.coll = p.coll) (h4 : q.calls = p.calls) (h5 : q.ids = p.ids) (h6 : q.issuedAt = p.issuedAt) :
    InvIds q := by
  constructor
  · rw [h1, h2]; exact h.nextId
  · rw [h1, h4]; exact h.calls
  · rw [h1, h5]; exact h.idsLen
  · rw [h1, h6]; exact h.issued
  · rw [h1, h5]; exact h.ids
  · rw [h3]; exact h.nodup
  · rw [h1, h3]; exact h.coll
  · rw [h1, h3]; exact h.tracked

theorem InvIds.cancelFut {p : Proto} (h : InvIds p) (f : Nat) : InvIds (p.cancelFut f) := by
  have e := cancelFut_eq p f
  have hl := cancelFut_length p f
  have hg := cancelFut_futs p f
  constructor
  · rw [hl, e]; exact h.nextId
  · rw [hl, e]; exact h.calls
  · rw [hl, e]; exact h.idsLen
  · rw [hl, e]; exact h.issued
  · rw [hl, e]; exact h.ids
  · rw [e]; exact h.nodup
  · intro k g hm
    rw [e] at hm
    obtain ⟨a, b, c, d⟩ := h.coll k g hm
    refine ⟨by rw [hl]; exact a, b, by rw [hl]; exact c, ?_⟩
    intro m; rw [hg]; split
    · simp
    · exact d m
  · intro g hp hlen
    rw [hl] at hlen
    rw [hg] at hp
    split at hp
    · simp at hp
    · rw [e]; exact h.tracked g hp hlen

theorem InvIds.send {p : Proto} (h : InvIds p) (code : Int) (data : Bytes) :
    InvIds (p.awaitSend code data).1 := by
  obtain ⟨futs, written, timers, kaStop, e, hf, -, -⟩ := awaitSend_spec p code data
  rw [e]
  have hlen : futs.length = p.futs.length + 1 := by rw [hf]; simp
  constructor
  · simp only [Proto.create, hlen, h.nextId]; split <;> omega
  · simp only [Proto.create, hlen, List.length_append, List.length_singleton, h.calls]
  · simp only [Proto.create, hlen, List.length_append, List.length_singleton, h.idsLen]
  · simp only [Proto.create, hlen, List.length_append, List.length_singleton, h.issued]
  · intro n hn
    simp only [hlen] at hn
    simp only [Proto.create]
    rw [getElem?_append_one, h.idsLen]
    split
    · rename_i h1; exact h.ids n h1
    · rw [if_pos (by omega), h.nextId]; congr 2; omega
  · exact nodup_aset h.nodup
  · intro k g hm
    simp only [Proto.create] at hm ⊢
    have hnd := nodup_aset (k := (p.nextId : Int)) (v := p.futs.length) h.nodup
    have hg := aget_of_mem hnd hm
    rw [aget_aset] at hg
    split at hg
    · rename_i hk
      simp only [Option.some.injEq] at hg
      subst hg
      rw [hlen, ← hk, h.nextId]
      refine ⟨by omega, rfl, by omega, ?_⟩
      intro m; rw [hf, getElem?_append_one]; simp; split <;> simp
    · rename_i hk
      obtain ⟨a, b, c, d⟩ := h.coll k g (mem_of_aget hg)
      refine ⟨by omega, b, ?_, ?_⟩
      · rw [hlen]
        rcases Nat.lt_or_ge (p.futs.length) (g + 32767) with h2 | h2
        · omega
        · exfalso
          have : p.futs.length = g + 32767 := by omega
          rw [h.nextId, this, b] at hk
          simp at hk
      · intro m; rw [hf, getElem?_append_one, if_pos a]; exact d m
  · intro g hp hl
    simp only [Proto.create] at hp hl ⊢
    rw [hf, getElem?_append_one] at hp
    rw [hlen] at hl
    split at hp
    · rename_i hg
      rw [aget_aset_ne]
      · exact h.tracked g hp (by omega)
      · rw [h.nextId]; intro hc; omega
    · split at hp
      · rename_i hg; rw [hg, h.nextId, aget_aset_same]
      · simp at hp

theorem InvIds.dispatch {p : Proto} (h : InvIds p) (m : Msg) : InvIds (p.dispatch m).1 := by
  obtain ⟨futs, coll, spawned, recv, fates, e, hc⟩ := dispatch_spec p m
  rw [e]
  have hdel : InvIds { p with coll := adel m.id p.coll } ∨ ∃ f, aget m.id p.coll = some f ∧ p.futs[f]? = some .pending := by
    cases ha : aget m.id p.coll with
    | none =>
      left
      refine ⟨h.nextId, h.calls, h.idsLen, h.issued, h.ids, nodup_adel h.nodup,
        fun k f hm => h.coll k f (mem_adel hm).1, ?_⟩
      intro f hp hl
      have := h.tracked f hp hl
      simp only
      rw [aget_adel, if_neg, this]
      intro hk; rw [hk] at ha; rw [ha] at this; simp at this
    | some f =>
      by_cases hp : p.futs[f]? = some .pending
      · exact .inr ⟨f, rfl, hp⟩
      · left
        refine ⟨h.nextId, h.calls, h.idsLen, h.issued, h.ids, nodup_adel h.nodup,
          fun k f hm => h.coll k f (mem_adel hm).1, ?_⟩
        intro g hg hl
        have := h.tracked g hg hl
        simp only
        rw [aget_adel, if_neg, this]
        intro hk; rw [hk, this] at ha
        simp only [Option.some.injEq] at ha
        rw [ha] at hg; exact hp hg
  rcases hc with ⟨f, ha, hp, h1, h2, h3, h4, h5, -⟩ | ⟨hcoll, h2, -, -, -⟩ | ⟨f, ha, hp, hp', h1, h2, -⟩
  · subst h1 h2
    have hfl := lt_of_getElem? hp
    obtain ⟨c1, c2, c3, c4⟩ := h.coll m.id f (mem_of_aget ha)
    constructor
    · simp only [List.length_set]; exact h.nextId
    · simp only [List.length_set]; exact h.calls
    · simp only [List.length_set]; exact h.idsLen
    · simp only [List.length_set]; exact h.issued
    · simp only [List.length_set]; exact h.ids
    · exact nodup_adel h.nodup
    · intro k g hm
      obtain ⟨hm1, hm2⟩ := mem_adel hm
      simp only [List.length_set]
      obtain ⟨a, b, c, d⟩ := h.coll k g hm1
      refine ⟨a, b, c, ?_⟩
      intro m'
      rw [List.getElem?_set]
      split
      · rename_i hfg; subst hfg; exfalso; apply hm2; rw [b, c2]
      · exact d m'
    · intro g hg hl
      simp only [List.length_set] at hl
      simp only [List.getElem?_set] at hg
      split at hg
      · simp at hg
      · rename_i hfg
        have := h.tracked g hg hl
        simp only
        rw [aget_adel, if_neg, this]
        intro hk; rw [← hk, ha] at this; simp only [Option.some.injEq] at this
        exact hfg this
  · subst h2
    rcases hcoll with ⟨_, hcc⟩ | ⟨f, ha, hp, hcc⟩
    · subst hcc; exact h.congr rfl rfl rfl rfl rfl rfl
    · subst hcc
      rcases hdel with hd | ⟨f', ha', hp'⟩
      · exact hd.congr rfl rfl rfl rfl rfl rfl
      · rw [ha] at ha'; simp only [Option.some.injEq] at ha'; subst ha'; rw [hp] at hp'; simp at hp'
  · subst h2 h1
    rcases hdel with hd | ⟨f', ha', hp''⟩
    · exact hd.congr rfl rfl rfl rfl rfl rfl
    · rw [ha] at ha'; simp only [Option.some.injEq] at ha'; subst ha'; exact absurd hp'' hp

theorem InvIds.cancelAll {p : Proto} (h : InvIds p) : InvIds p.cancelAll := by
  obtain ⟨e, hl, hg⟩ := cancelAll_spec p
  constructor
  · rw [hl, e]; exact h.nextId
  · rw [hl, e]; exact h.calls
  · rw [hl, e]; exact h.idsLen
  · rw [hl, e]; exact h.issued
  · rw [hl, e]; exact h.ids
  · rw [e]; simp [akeys]
  · rw [e]; simp
  · intro f hp hlen
    exfalso
    rw [hl] at hlen
    rw [hg] at hp
    split at hp
    · simp at hp
    · rename_i hn
      have := mem_of_aget (h.tracked f hp hlen)
      exact hn ⟨List.mem_map.2 ⟨_, this, rfl⟩, hp⟩

theorem InvIds.atom {p q : Proto} (a : PAtom p q) (h : InvIds p) : InvIds q := by
  cases a with
  | send code data => exact h.send code data
  | cancelFut f => exact h.cancelFut f
  | setBuff b => exact h.congr rfl rfl rfl rfl rfl rfl
  | dispatch m => exact h.dispatch m
  | cancelAll => exact h.cancelAll
  | lost =>
    refine h.congr ?_ ?_ ?_ ?_ ?_ ?_ <;> (simp only [Proto.connectionLost]; rw [stopKeepalive_eq])
  | tclose => exact h.congr rfl rfl rfl rfl rfl rfl
  | closing => exact h.congr rfl rfl rfl rfl rfl rfl
  | setCbs c => exact h.congr rfl rfl rfl rfl rfl rfl
  | enable a => exact h.congr rfl rfl rfl rfl rfl rfl
  | disable =>
    refine h.congr ?_ ?_ ?_ ?_ ?_ ?_ <;> (simp only [Proto.disableKeepalive]; rw [stopKeepalive_eq])
  | fire i =>
    refine h.congr ?_ ?_ ?_ ?_ ?_ ?_ <;> (simp only [Proto.timerFire]; split <;> rfl)

theorem invIds (es : List Event) : InvIds (World.init.run es).p :=
  run_inv InvIds.init (fun _ _ a h => h.atom a) es

/-! ## Monotonicity: futures only move forward -/

/-- What can never be undone on a protocol object. -/
structure Later (p q : Proto) : Prop where
  futsLen : p.futs.length ≤ q.futs.length
  result : ∀ (f : Nat) (m : Msg), p.futs[f]? = some (.result m) → q.futs[f]? = some (.result m)
  cancelled : ∀ (f : Nat), p.futs[f]? = some .cancelled → q.futs[f]? = some .cancelled
  calls : ∀ (f : Nat) (c : Int × Bytes), p.calls[f]? = some c → q.calls[f]? = some c
  recv : p.recv <+: q.recv
  closing : p.closing = true → q.closing = true
  tclosing : p.tclosing = true → q.tclosing = true
  disconnected : p.connected = false → q.connected = false
  closed : p.closed = true → q.closed = true
  quiet : p.closing = true ∨ p.tclosing = true → q.written = p.written

theorem Later.refl (p : Proto) : Later p p :=
  ⟨Nat.le_refl _, fun _ _ h => h, fun _ h => h, fun _ _ h => h, List.prefix_refl _, id, id, id, id,
    fun _ => rfl⟩

theorem Later.trans {p q r : Proto} (h : Later p q) (h' : Later q r) : Later p r :=
  ⟨Nat.le_trans h.futsLen h'.futsLen, fun f m x => h'.result f m (h.result f m x),
    fun f x => h'.cancelled f (h.cancelled f x), fun f c x => h'.calls f c (h.calls f c x),
    h.recv.trans h'.recv, fun x => h'.closing (h.closing x), fun x => h'.tclosing (h.tclosing x),
    fun x => h'.disconnected (h.disconnected x), fun x => h'.closed (h.closed x),
    fun x => by rw [h'.quiet (x.imp h.closing h.tclosing), h.quiet x]⟩

theorem Later.of_eq {p q : Proto} (h1 : q.futs = p.futs) (h2 : q.calls = p.calls) (h3 : q.recv = p.recv)
    (h4 : p.closing = true → q.closing = true) (h5 : p.tclosing = true → q.tclosing = true)
    (h6 : p.connected = false → q.connected = false) (h7 : p.closed = true → q.closed = true)
    (h8 : q.written = p.written) : Later p q :=
  ⟨by rw [h1]; exact Nat.le_refl _, by rw [h1]; exact fun _ _ h => h, by rw [h1]; exact fun _ h => h,
    by rw [h2]; exact fun _ _ h => h, by rw [h3]; exact List.prefix_refl _, h4, h5, h6, h7, fun _ => h8⟩

theorem Later.atom {p q : Proto} (a : PAtom p q) : Later p q := by
  cases a with
  | send code data =>
    obtain ⟨futs, written, timers, kaStop, e, hf, hw, -⟩ := awaitSend_spec p code data
    rw [e]
    refine ⟨?_, ?_, ?_, ?_, List.prefix_refl _, id, id, id, id, ?_⟩
    · simp [hf]
    · intro f m h
      simp only [hf]
      rw [List.getElem?_append_left (lt_of_getElem? h)]; exact h
    · intro f h
      simp only [hf]
      rw [List.getElem?_append_left (lt_of_getElem? h)]; exact h
    · intro f c h
      simp only [Proto.create]
      rw [List.getElem?_append_left (lt_of_getElem? h)]; exact h
    · intro h
      rcases hw with ⟨hw, -⟩ | ⟨b, hb, hb', -, -⟩
      · exact hw
      · rw [hb, hb'] at h; simp at h
  | cancelFut f =>
    have hg := cancelFut_futs p f
    rw [cancelFut_eq]
    refine ⟨?_, ?_, ?_, fun _ _ h => h, List.prefix_refl _, id, id, id, id, fun _ => rfl⟩
    · simp [cancelFut_length]
    · intro g m h; simp only; rw [hg, if_neg, h]; simp [h]
    · intro g h; simp only; rw [hg, if_neg, h]; simp [h]
  | setBuff b => exact .of_eq rfl rfl rfl id id id id rfl
  | dispatch m =>
    obtain ⟨futs, coll, spawned, recv, fates, e, hc⟩ := dispatch_spec p m
    rw [e]
    rcases hc with ⟨f, ha, hp, h1, h2, h3, h4, h5, -⟩ | ⟨-, h2, h3, -, -⟩ | ⟨f, ha, hp, hp', h1, h2, h3, h4, -⟩
    · subst h2 h4
      refine ⟨by simp, ?_, ?_, fun _ _ h => h, List.prefix_append _ _, id, id, id, id, fun _ => rfl⟩
      · intro g m' h; simp only; rw [List.getElem?_set]; split
        · rename_i hfg; subst hfg; rw [hp] at h; simp at h
        · exact h
      · intro g h; simp only; rw [List.getElem?_set]; split
        · rename_i hfg; subst hfg; rw [hp] at h; simp at h
        · exact h
    · subst h2 h3
      exact ⟨Nat.le_refl _, fun _ _ h => h, fun _ h => h, fun _ _ h => h, List.prefix_append _ _, id, id,
        id, id, fun _ => rfl⟩
    · subst h2 h4
      exact .of_eq rfl rfl rfl id id id id rfl
  | cancelAll =>
    obtain ⟨e, hl, hg⟩ := cancelAll_spec p
    rw [e]
    refine ⟨?_, ?_, ?_, fun _ _ h => h, List.prefix_refl _, id, id, id, id, fun _ => rfl⟩
    · simp [hl]
    · intro g m h; simp only; rw [hg, if_neg, h]; simp [h]
    · intro g h; simp only; rw [hg, if_neg, h]; simp [h]
  | lost =>
    have : p.connectionLost.futs = p.futs ∧ p.connectionLost.calls = p.calls ∧
        p.connectionLost.recv = p.recv ∧ p.connectionLost.closing = p.closing ∧
        p.connectionLost.connected = false ∧ p.connectionLost.written = p.written := by
      simp only [Proto.connectionLost]; rw [stopKeepalive_eq]; simp
    obtain ⟨a1, a2, a3, a4, a5, a6⟩ := this
    exact .of_eq a1 a2 a3 (by rw [a4]; exact id) (fun _ => rfl) (fun _ => a5) (fun _ => rfl) a6
  | tclose => exact .of_eq rfl rfl rfl id (fun _ => rfl) id id rfl
  | closing => exact .of_eq rfl rfl rfl (fun _ => rfl) id id id rfl
  | setCbs c => exact .of_eq rfl rfl rfl id id id id rfl
  | enable a => exact .of_eq rfl rfl rfl id id id id rfl
  | disable =>
    simp only [Proto.disableKeepalive]; rw [stopKeepalive_eq]
    exact .of_eq rfl rfl rfl id id id id rfl
  | fire i =>
    simp only [Proto.timerFire]; split
    · exact .of_eq rfl rfl rfl id id id id rfl
    · exact .refl _

theorem PSteps.later {p q : Proto} (h : PSteps p q) : Later p q := by
  induction h with
  | refl => exact .refl _
  | tail _ a ih => exact ih.trans (.atom a)

theorem run_later (w : World) (es : List Event) : Later w.p (w.run es).p := (run_steps es w).later

theorem step_later (w : World) (e : Event) : Later w.p (w.step e).p := (step_steps w e).later

/-! ## What became of the received messages -/

/-- The task a message started, if any. -/
def taskOf : Fate × Msg → Option (Nat × Bytes)
  | (.handled h, m) => some (h, m.data)
  | _ => none

structure InvRecv (p : Proto) : Prop where
  len : p.fates.length = p.recv.length
  spawned : p.spawned = (p.fates.zip p.recv).filterMap taskOf
  answered : ∀ (k f : Nat), p.fates[k]? = some (.answered f) →
    ∃ m i, p.recv[k]? = some m ∧ p.futs[f]? = some (.result m) ∧ m.id = ((f % 32767 : Nat) : Int) ∧
      p.issuedAt[f]? = some i ∧ i ≤ k
  result : ∀ (f : Nat) (m : Msg), p.futs[f]? = some (.result m) → ∃ k : Nat, p.fates[k]? = some (.answered f)
  unique : ∀ (k k' f : Nat), p.fates[k]? = some (.answered f) → p.fates[k']? = some (.answered f) → k = k'
  issuedLe : ∀ (f i : Nat), p.issuedAt[f]? = some i → i ≤ p.recv.length

theorem InvRecv.init : InvRecv {} := by
  constructor <;> simp

theorem InvRecv.congr {p q : Proto} (h : InvRecv p) (h1 : q.futs = p.futs) (h2 : q.fates = p.fates)
    (h3 : q.recv = p.recv) (h4 : q.spawned = p.spawned) (h5 : q.issuedAt = p.issuedAt) : InvRecv q := by
  constructor
  · rw [h2, h3]; exact h.len
  · rw [h2, h3, h4]; exact h.spawned
  · rw [h1, h2, h3, h5]; exact h.answered
  · rw [h1, h2]; exact h.result
  · rw [h2]; exact h.unique
  · rw [h3, h5]; exact h.issuedLe

/-- Futures without results may change freely as long as no result appears or disappears. -/
theorem InvRecv.futs {p : Proto} (h : InvRecv p) (futs : List FutState)
    (hr : ∀ (f : Nat) (m : Msg), futs[f]? = some (.result m) ↔ p.futs[f]? = some (.result m)) :
    InvRecv { p with futs := futs } := by
  constructor
  · exact h.len
  · exact h.spawned
  · intro k f hk
    obtain ⟨m, i, a, b, c, d⟩ := h.answered k f hk
    exact ⟨m, i, a, (hr f m).2 b, c, d⟩
  · intro f m hf; exact h.result f m ((hr f m).1 hf)
  · exact h.unique
  · exact h.issuedLe

theorem filterMap_zip_append {fs : List Fate} {ms : List Msg} (hl : fs.length = ms.length) (x : Fate) (m : Msg) :
    ((fs ++ [x]).zip (ms ++ [m])).filterMap taskOf =
      (fs.zip ms).filterMap taskOf ++ (taskOf (x, m)).toList := by
  rw [List.zip_append hl, List.filterMap_append]
  congr 1

theorem InvRecv.send {p : Proto} (h : InvRecv p) (code : Int) (data : Bytes) :
    InvRecv (p.awaitSend code data).1 := by
  obtain ⟨futs, written, timers, kaStop, e, hf, -, -⟩ := awaitSend_spec p code data
  rw [e]
  have hres : ∀ (f : Nat) (m : Msg), futs[f]? = some (.result m) ↔ p.futs[f]? = some (.result m) := by
    intro f m
    rw [hf, getElem?_append_one]
    by_cases h1 : f < p.futs.length
    · rw [if_pos h1]
    · rw [if_neg h1, List.getElem?_eq_none (by omega)]
      split
      · split <;> simp
      · simp
  constructor
  · exact h.len
  · exact h.spawned
  · intro k f hk
    obtain ⟨m, i, a, b, c, d, d'⟩ := h.answered k f hk
    refine ⟨m, i, a, (hres f m).2 b, c, ?_, d'⟩
    simp only [Proto.create]
    rw [List.getElem?_append_left (lt_of_getElem? d)]; exact d
  · intro f m hf'; exact h.result f m ((hres f m).1 hf')
  · exact h.unique
  · intro f i hfi
    simp only [Proto.create] at hfi ⊢
    rw [getElem?_append_one] at hfi
    split at hfi
    · exact h.issuedLe f i hfi
    · split at hfi
      · simp only [Option.some.injEq] at hfi; omega
      · simp at hfi

theorem InvRecv.dispatch {p : Proto} (hi : InvIds p) (h : InvRecv p) (m : Msg) :
    InvRecv (p.dispatch m).1 := by
  obtain ⟨futs, coll, spawned, recv, fates, e, hc⟩ := dispatch_spec p m
  rw [e]
  rcases hc with ⟨f, ha, hp, h1, h2, h3, h4, h5, -⟩ | ⟨-, h2, h3, -, h4⟩ | ⟨f, ha, hp, hp', h1, h2, h3, h4, h5, -⟩
  · subst h1 h2 h3 h4 h5
    have hfl := lt_of_getElem? hp
    obtain ⟨c1, c2, c3, c4⟩ := hi.coll m.id f (mem_of_aget ha)
    have hno : ∀ k : Nat, p.fates[k]? ≠ some (.answered f) := by
      intro k hk
      obtain ⟨m', i, a, b, -⟩ := h.answered k f hk
      rw [hp] at b; simp at b
    constructor
    · simp [h.len]
    · simp only [filterMap_zip_append h.len, taskOf, Option.toList_none, List.append_nil]; exact h.spawned
    · intro k g hk
      simp only at hk ⊢
      rw [getElem?_append_one] at hk
      rw [getElem?_append_one, List.getElem?_set, ← h.len]
      split at hk
      · rename_i hkl
        obtain ⟨m', i, a, b, c⟩ := h.answered k g hk
        refine ⟨m', i, by rw [if_pos hkl]; exact a, ?_, c⟩
        rw [if_neg]
        · exact b
        · intro hfg; subst hfg; exact hno k hk
      · split at hk
        · rename_i hkl
          simp only [Option.some.injEq, Fate.answered.injEq] at hk
          subst hk
          have : f < p.issuedAt.length := by rw [hi.issued]; exact hfl
          refine ⟨m, p.issuedAt[f], by rw [if_neg (by omega), if_pos hkl], by simp [hfl], c2, by simp [this], ?_⟩
          rw [hkl, h.len]
          exact h.issuedLe f _ (by simp [this])
        · simp at hk
    · intro g m' hg
      simp only [List.getElem?_set] at hg
      split at hg
      · rename_i hfg; subst hfg; exact ⟨p.fates.length, by simp⟩
      · obtain ⟨k, hk⟩ := h.result g m' hg
        exact ⟨k, by simp only; rw [List.getElem?_append_left (lt_of_getElem? hk)]; exact hk⟩
    · intro k k' g hk hk'
      simp only [getElem?_append_one] at hk hk'
      split at hk <;> split at hk'
      · exact h.unique k k' g hk hk'
      · split at hk'
        · simp only [Option.some.injEq, Fate.answered.injEq] at hk'; subst hk'; exact absurd hk (hno k)
        · simp at hk'
      · split at hk
        · simp only [Option.some.injEq, Fate.answered.injEq] at hk; subst hk; exact absurd hk' (hno k')
        · simp at hk
      · split at hk <;> split at hk' <;> first | omega | simp at hk hk'
    · intro g i hgi
      have := h.issuedLe g i hgi
      simp only [List.length_append, List.length_singleton]; omega
  · subst h2 h3
    have key : ∀ x, (∀ f, x ≠ Fate.answered f) → fates = p.fates ++ [x] →
        spawned = p.spawned ++ (taskOf (x, m)).toList →
        InvRecv { p with coll := coll, spawned := spawned, recv := p.recv ++ [m], fates := fates } := by
      intro x hx hfates hsp
      subst hfates hsp
      constructor
      · simp [h.len]
      · simp only [filterMap_zip_append h.len]; rw [h.spawned]
      · intro k g hk
        simp only at hk ⊢
        rw [getElem?_append_one] at hk
        split at hk
        · rename_i hkl
          obtain ⟨m', i, a, b⟩ := h.answered k g hk
          exact ⟨m', i, by rw [List.getElem?_append_left (lt_of_getElem? a)]; exact a, b⟩
        · split at hk
          · simp only [Option.some.injEq] at hk; exact absurd hk (hx g)
          · simp at hk
      · intro g m' hg
        obtain ⟨k, hk⟩ := h.result g m' hg
        exact ⟨k, by simp only; rw [List.getElem?_append_left (lt_of_getElem? hk)]; exact hk⟩
      · intro k k' g hk hk'
        simp only [getElem?_append_one] at hk hk'
        split at hk
        · split at hk'
          · exact h.unique k k' g hk hk'
          · split at hk'
            · simp only [Option.some.injEq] at hk'; exact absurd hk' (hx g)
            · simp at hk'
        · split at hk
          · simp only [Option.some.injEq] at hk; exact absurd hk (hx g)
          · simp at hk
      · intro g i hgi
        have := h.issuedLe g i hgi
        simp only [List.length_append, List.length_singleton]; omega
    rcases h4 with ⟨hh, -, h5, h6⟩ | ⟨-, h5, h6⟩
    · exact key (.handled hh) (by simp) h6 h5
    · exact key .dropped (by simp) h6 (by simpa [taskOf] using h5)
  · subst h2 h3 h4 h5
    exact h.congr rfl rfl rfl rfl rfl

theorem InvRecv.atom {p q : Proto} (a : PAtom p q) (hi : InvIds p) (h : InvRecv p) : InvRecv q := by
  cases a with
  | send code data => exact h.send code data
  | cancelFut f =>
    have hg := cancelFut_futs p f
    rw [cancelFut_eq]
    apply h.futs
    intro g m; rw [hg]; split
    · rename_i h1; rw [h1.2]; simp
    · rfl
  | setBuff b => exact h.congr rfl rfl rfl rfl rfl
  | dispatch m => exact h.dispatch hi m
  | cancelAll =>
    obtain ⟨e, hl, hg⟩ := cancelAll_spec p
    rw [e]
    have := h.futs p.cancelAll.futs (by
      intro g m; rw [hg]; split
      · rename_i h1; rw [h1.2]; simp
      · rfl)
    exact this.congr rfl rfl rfl rfl rfl
  | lost =>
    refine h.congr ?_ ?_ ?_ ?_ ?_ <;> (simp only [Proto.connectionLost]; rw [stopKeepalive_eq])
  | tclose => exact h.congr rfl rfl rfl rfl rfl
  | closing => exact h.congr rfl rfl rfl rfl rfl
  | setCbs c => exact h.congr rfl rfl rfl rfl rfl
  | enable a => exact h.congr rfl rfl rfl rfl rfl
  | disable =>
    refine h.congr ?_ ?_ ?_ ?_ ?_ <;> (simp only [Proto.disableKeepalive]; rw [stopKeepalive_eq])
  | fire i =>
    refine h.congr ?_ ?_ ?_ ?_ ?_ <;> (simp only [Proto.timerFire]; split <;> rfl)

theorem invRecv (es : List Event) : InvRecv (World.init.run es).p :=
  (run_inv (P := fun p => InvIds p ∧ InvRecv p) ⟨InvIds.init, InvRecv.init⟩
    (fun _ _ a h => ⟨h.1.atom a, h.2.atom a h.1⟩) es).2

/-! ## What was written -/

structure InvWritten (p : Proto) : Prop where
  bytes : ∀ n bs, (n, bs) ∈ p.written → ∃ (code : Int) (data : Bytes),
    p.calls[n]? = some (code, data) ∧ makeMessage ((n % 32767 : Nat) : Int) code data = .ok bs
  order : p.written.Pairwise (fun a b => a.1 < b.1)
  bound : ∀ n bs, (n, bs) ∈ p.written → n < p.futs.length

theorem InvWritten.congr {p q : Proto} (h : InvWritten p) (h1 : q.futs.length = p.futs.length)
    (h2 : q.written = p.written) (h3 : q.calls = p.calls) : InvWritten q := by
  constructor
  · rw [h2, h3]; exact h.bytes
  · rw [h2]; exact h.order
  · rw [h1, h2]; exact h.bound

theorem InvWritten.atom {p q : Proto} (a : PAtom p q) (hi : InvIds p) (h : InvWritten p) : InvWritten q := by
  cases a with
  | send code data =>
    obtain ⟨futs, written, timers, kaStop, e, hf, hw, -⟩ := awaitSend_spec p code data
    rw [e]
    have hold : ∀ n bs, (n, bs) ∈ p.written → ∃ (c : Int) (d : Bytes),
        (p.create code data).calls[n]? = some (c, d) ∧ makeMessage ((n % 32767 : Nat) : Int) c d = .ok bs := by
      intro n bs hm
      obtain ⟨c, d, h1, h2⟩ := h.bytes n bs hm
      refine ⟨c, d, ?_, h2⟩
      simp only [Proto.create]
      rw [List.getElem?_append_left (lt_of_getElem? h1)]; exact h1
    rcases hw with ⟨hw, -⟩ | ⟨b, -, -, hm, hw⟩
    · subst hw
      refine ⟨hold, h.order, ?_⟩
      intro n bs hm
      have := h.bound n bs hm
      simp only [hf, List.length_append, List.length_singleton]; omega
    · subst hw
      refine ⟨?_, ?_, ?_⟩
      · intro n bs hmem
        simp only [List.mem_append, List.mem_singleton, Prod.mk.injEq] at hmem
        rcases hmem with hmem | ⟨h1, h2⟩
        · exact hold n bs hmem
        · subst h1 h2
          refine ⟨code, data, ?_, ?_⟩
          · simp only [Proto.create]; rw [← hi.calls]; simp
          · rw [← hi.nextId]; exact hm
      · simp only
        rw [List.pairwise_append]
        refine ⟨h.order, by simp, ?_⟩
        intro a ha b' hb'
        simp only [List.mem_singleton] at hb'
        subst hb'
        exact h.bound a.1 a.2 ha
      · intro n bs hmem
        simp only [List.mem_append, List.mem_singleton, Prod.mk.injEq] at hmem
        simp only [hf, List.length_append, List.length_singleton]
        rcases hmem with hmem | ⟨h1, h2⟩
        · have := h.bound n bs hmem; omega
        · omega
  | cancelFut f =>
    have hl := cancelFut_length p f
    rw [cancelFut_eq]
    exact h.congr hl rfl rfl
  | setBuff b => exact h.congr rfl rfl rfl
  | dispatch m =>
    obtain ⟨futs, coll, spawned, recv, fates, e, hc⟩ := dispatch_spec p m
    rw [e]
    refine h.congr ?_ rfl rfl
    rcases hc with ⟨f, ha, hp, h1, h2, -⟩ | ⟨-, h2, -⟩ | ⟨f, ha, hp, hp', h1, h2, -⟩ <;> subst h2 <;> simp
  | cancelAll =>
    obtain ⟨e, hl, hg⟩ := cancelAll_spec p
    rw [e]
    exact h.congr hl rfl rfl
  | lost =>
    refine h.congr ?_ ?_ ?_ <;> (simp only [Proto.connectionLost]; rw [stopKeepalive_eq])
  | tclose => exact h.congr rfl rfl rfl
  | closing => exact h.congr rfl rfl rfl
  | setCbs c => exact h.congr rfl rfl rfl
  | enable a => exact h.congr rfl rfl rfl
  | disable =>
    refine h.congr ?_ ?_ ?_ <;> (simp only [Proto.disableKeepalive]; rw [stopKeepalive_eq])
  | fire i =>
    refine h.congr ?_ ?_ ?_ <;> (simp only [Proto.timerFire]; split <;> rfl)

theorem invWritten (es : List Event) : InvWritten (World.init.run es).p :=
  (run_inv (P := fun p => InvIds p ∧ InvWritten p) ⟨InvIds.init, by constructor <;> simp⟩
    (fun _ _ a h => ⟨h.1.atom a, h.2.atom a h.1⟩) es).2

/-! ## Keepalive -/

structure InvKa (p : Proto) : Prop where
  live : ∀ (i : Nat), p.timers[i]? = some true → p.kaStop = some i
  bound : ∀ (i : Nat), p.kaStop = some i → i < p.timers.length
  await : p.kaStop.isSome → p.kaAwait.isSome

theorem InvKa.congr {p q : Proto} (h : InvKa p) (h1 : q.timers = p.timers) (h2 : q.kaStop = p.kaStop)
    (h3 : q.kaAwait = p.kaAwait) : InvKa q := by
  constructor
  · rw [h1, h2]; exact h.live
  · rw [h1, h2]; exact h.bound
  · rw [h2, h3]; exact h.await

theorem InvKa.setKeepalive {p : Proto} (h : InvKa p) (ha : p.kaAwait.isSome) : InvKa p.setKeepalive := by
  have key : ∀ ts : List Bool, (∀ i : Nat, ts[i]? ≠ some true) →
      InvKa { p with timers := ts ++ [true], kaStop := some ts.length } := by
    intro ts hts
    constructor
    · intro i hi
      simp only at hi ⊢
      rw [getElem?_append_one] at hi
      split at hi
      · exact absurd hi (hts i)
      · split at hi
        · rename_i h2; rw [h2]
        · simp at hi
    · intro i hi
      simp only [Option.some.injEq] at hi
      simp only [List.length_append, List.length_singleton]; omega
    · intro _; exact ha
  unfold Proto.setKeepalive
  simp only
  apply key
  intro i hi
  split at hi
  · rename_i j hj
    rw [List.getElem?_set] at hi
    split at hi
    · rename_i hji
      split at hi <;> simp at hi
    · rename_i hji
      have := h.live i hi
      rw [hj] at this
      simp only [Option.some.injEq] at this; exact hji this
  · rename_i hj
    have := h.live i hi
    rw [hj] at this; simp at this

theorem stopKeepalive_dead {p : Proto} (h : InvKa p) :
    (∀ i : Nat, p.stopKeepalive.timers[i]? ≠ some true) ∧ p.stopKeepalive.kaStop = none := by
  unfold Proto.stopKeepalive
  split
  · rename_i j hj
    refine ⟨?_, rfl⟩
    intro i hi
    simp only [List.getElem?_set] at hi
    split at hi
    · split at hi <;> simp at hi
    · rename_i hji
      have := h.live i hi
      rw [hj] at this
      simp only [Option.some.injEq] at this; exact hji this
  · rename_i hj
    refine ⟨?_, hj⟩
    intro i hi
    have := h.live i hi
    rw [hj] at this; simp at this

theorem InvKa.of_dead {p : Proto} (h1 : ∀ i : Nat, p.timers[i]? ≠ some true) (h2 : p.kaStop = none) : InvKa p :=
  ⟨fun i hi => absurd hi (h1 i), by rw [h2]; simp, by rw [h2]; simp⟩

theorem InvKa.atom {p q : Proto} (a : PAtom p q) (h : InvKa p) : InvKa q := by
  cases a with
  | send code data =>
    obtain ⟨futs, written, timers, kaStop, e, -, -, hk⟩ := awaitSend_spec p code data
    rw [e]
    rcases hk with ⟨h1, h2, -⟩ | ⟨h1, h2, h3⟩
    · exact h.congr h1 h2 rfl
    · exact (h.setKeepalive h3).congr h1 h2 rfl
  | cancelFut f => rw [cancelFut_eq]; exact h.congr rfl rfl rfl
  | setBuff b => exact h.congr rfl rfl rfl
  | dispatch m =>
    obtain ⟨futs, coll, spawned, recv, fates, e, hc⟩ := dispatch_spec p m
    rw [e]; exact h.congr rfl rfl rfl
  | cancelAll =>
    obtain ⟨e, hl, hg⟩ := cancelAll_spec p
    rw [e]; exact h.congr rfl rfl rfl
  | lost =>
    have := stopKeepalive_dead (p := { p with connected := false }) (h.congr rfl rfl rfl)
    exact .of_dead this.1 this.2
  | tclose => exact h.congr rfl rfl rfl
  | closing => exact h.congr rfl rfl rfl
  | setCbs c => exact h.congr rfl rfl rfl
  | enable a =>
    apply InvKa.setKeepalive
    · exact ⟨h.live, h.bound, fun _ => rfl⟩
    · rfl
  | disable =>
    unfold Proto.disableKeepalive
    have hd : ({ p with kaAwait := none } : Proto).stopKeepalive =
        { p.stopKeepalive with kaAwait := none } := by
      unfold Proto.stopKeepalive; simp only; split <;> rfl
    rw [hd]
    have := stopKeepalive_dead h
    exact .of_dead this.1 this.2
  | fire i =>
    unfold Proto.timerFire
    split
    · constructor
      · intro j hj
        simp only [List.getElem?_set] at hj
        split at hj
        · split at hj <;> simp at hj
        · exact h.live j hj
      · simpa using h.bound
      · exact h.await
    · exact h

theorem invKa (es : List Event) : InvKa (World.init.run es).p :=
  run_inv (P := InvKa) (by constructor <;> simp) (fun _ _ a h => h.atom a) es

end SL
