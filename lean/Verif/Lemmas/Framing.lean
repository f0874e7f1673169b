import Verif.Props.Codec
import Verif.Model.Framing
/-! # Unique decomposition of byte streams into frames plus an incomplete tail -/
namespace SL
open Spec

/-- No complete message can be taken off the front of `tail`. -/
def Incomplete (tail : Bytes) : Prop :=
  ∀ (id code : Int) (d f rest : Bytes), makeMessage id code d = .ok f → tail ≠ f ++ rest

theorem makeMessage_ok {id code : Int} {d f : Bytes} (h : makeMessage id code d = .ok f) :
    0 ≤ id ∧ id ≤ 65535 ∧ 0 ≤ code ∧ code ≤ 65535 ∧ d.length < 2 ^ 32 ∧
      f = frame id.toNat code.toNat d := by
  rw [C01_make_message] at h
  split at h
  · rename_i hr; injection h with h
    exact ⟨hr.1, hr.2.1, hr.2.2.1, hr.2.2.2.1, hr.2.2.2.2, h.symm⟩
  · simp at h

/-- The header of a buffer that starts with a frame announces that frame's payload length. -/
theorem header_of_frame {id code : Int} {d f : Bytes} (h : makeMessage id code d = .ok f)
    (rest : Bytes) : leVal (((f ++ rest).drop 4).take 4) = d.length := by
  obtain ⟨-, -, -, -, hl, rfl⟩ := makeMessage_ok h
  have : ((frame id.toNat code.toNat d ++ rest).drop 4).take 4 = u32 d.length := by
    simp [frame, u16, u32]
  rw [this, leVal_u32 hl]

theorem frame_prefix_unique {id code id' code' : Int} {d d' f f' r r' : Bytes}
    (h : makeMessage id code d = .ok f) (h' : makeMessage id' code' d' = .ok f')
    (he : f ++ r = f' ++ r') : f = f' ∧ r = r' ∧ id = id' ∧ code = code' ∧ d = d' := by
  have l1 := header_of_frame h r
  have l2 := header_of_frame h' r'
  rw [he, l2] at l1
  have hl := (C01_message_roundtrip _ _ _ _ h).2
  have hl' := (C01_message_roundtrip _ _ _ _ h').2
  obtain ⟨hf, hr⟩ := List.append_inj he (by omega)
  have t := (C01_message_roundtrip _ _ _ _ h).1
  have t' := (C01_message_roundtrip _ _ _ _ h').1
  rw [hf, t'] at t
  simp only [Except.ok.injEq, Msg.mk.injEq] at t
  exact ⟨hf, hr, t.1.symm, t.2.1.symm, t.2.2.symm⟩

theorem decomposition_unique {ms ms' : List Msg} {fs fs' : List Bytes} {tail tail' : Bytes}
    (h : Packed ms fs) (h' : Packed ms' fs') (hi : Incomplete tail) (hi' : Incomplete tail')
    (he : fs.flatten ++ tail = fs'.flatten ++ tail') : ms = ms' ∧ tail = tail' := by
  induction h generalizing ms' fs' with
  | nil =>
    cases h' with
    | nil => exact ⟨rfl, by simpa using he⟩
    | cons hm _ =>
      simp only [List.flatten_nil, List.nil_append, List.flatten_cons, List.append_assoc] at he
      exact absurd he (hi _ _ _ _ _ hm)
  | @cons m f ms fs hm _ ih =>
    cases h' with
    | nil =>
      simp only [List.flatten_nil, List.nil_append, List.flatten_cons, List.append_assoc] at he
      exact absurd he.symm (hi' _ _ _ _ _ hm)
    | @cons m' f' ms' fs' hm' hp' =>
      simp only [List.flatten_cons, List.append_assoc] at he
      obtain ⟨hf, hr, h1, h2, h3⟩ := frame_prefix_unique hm hm' he
      obtain ⟨i1, i2⟩ := ih hp' hr
      refine ⟨?_, i2⟩
      rw [i1]
      cases m; cases m'; simp_all

theorem Packed.append {ms ms' : List Msg} {fs fs' : List Bytes} (h : Packed ms fs)
    (h' : Packed ms' fs') : Packed (ms ++ ms') (fs ++ fs') := by
  induction h with
  | nil => exact h'
  | cons hm _ ih => exact .cons hm ih

theorem completeLoop_spec : ∀ (fuel : Nat) (b : Bytes) (acc : List Msg), b.length ≤ fuel →
    ∃ ms fs tail, completeLoop fuel b acc = (.ok (acc ++ ms), tail) ∧ Packed ms fs ∧
      b = fs.flatten ++ tail ∧ Incomplete tail := by
  intro fuel
  induction fuel with
  | zero =>
    intro b acc h
    have : b = [] := List.eq_nil_of_length_eq_zero (by omega)
    subst this
    refine ⟨[], [], [], by simp [completeLoop], .nil, by simp, ?_⟩
    intro id code d f rest hm he
    have := (C01_message_roundtrip _ _ _ _ hm).2
    have := congrArg List.length he
    simp only [List.length_append, List.length_nil] at this; omega
  | succ fuel ih =>
    intro b acc h
    unfold completeLoop
    by_cases h1 : headerLength ≤ b.length
    · rw [if_pos h1]
      simp only
      by_cases h2 : headerLength + leVal ((b.drop 4).take 4) ≤ b.length
      · rw [if_pos h2]
        generalize hN : leVal ((b.drop 4).take 4) = N at *
        generalize ht : b.take (headerLength + N) = t
        have htl : t.length = headerLength + N := by rw [← ht]; simp; omega
        have hN' : leVal ((t.drop 4).take 4) = N := by
          rw [← ht, ← hN]; congr 1
          rw [List.drop_take, List.take_take]; congr 1; simp only [headerLength]; omega
        have htake : ∃ m, takeMessage t = .ok m := by
          unfold takeMessage
          rw [if_neg (by omega)]
          simp only [hN']
          exact ⟨_, by rw [if_neg (by omega)]⟩
        obtain ⟨m, hm⟩ := htake
        rw [hm]
        simp only
        obtain ⟨ms, fs, tail, e1, e2, e3, e4⟩ := ih (b.drop (headerLength + N)) (acc ++ [m])
          (by simp [headerLength]; omega)
        refine ⟨m :: ms, t :: fs, tail, by rw [e1]; simp, .cons ((C02_take_message_iff t m).1 hm) e2, ?_, e4⟩
        rw [List.flatten_cons, List.append_assoc, ← e3, ← ht, List.take_append_drop]
      · rw [if_neg h2]
        refine ⟨[], [], b, by simp, .nil, by simp, ?_⟩
        intro id code d f rest hm he
        have hl := (C01_message_roundtrip _ _ _ _ hm).2
        have := header_of_frame hm rest
        rw [he, this] at h2
        simp only [List.length_append, headerLength] at h2; omega
    · rw [if_neg h1]
      refine ⟨[], [], b, by simp, .nil, by simp, ?_⟩
      intro id code d f rest hm he
      have hl := (C01_message_roundtrip _ _ _ _ hm).2
      have := congrArg List.length he
      simp only [List.length_append, headerLength] at this h1; omega

theorem completeMessages_spec (buff data : Bytes) :
    ∃ ms fs tail, completeMessages buff data = (.ok ms, tail) ∧ Packed ms fs ∧
      buff ++ data = fs.flatten ++ tail ∧ Incomplete tail := by
  obtain ⟨ms, fs, tail, h, h2⟩ := completeLoop_spec _ (buff ++ data) [] (Nat.le_refl _)
  exact ⟨ms, fs, tail, by simpa [completeMessages] using h, h2⟩

/-- The fuel of the model's loop is never what stops it. -/
theorem completeLoop_fuel (b : Bytes) (acc : List Msg) (k : Nat) :
    completeLoop (b.length + k) b acc = completeLoop b.length b acc := by
  obtain ⟨ms, fs, tail, h, p, d, i⟩ := completeLoop_spec _ b acc (Nat.le_refl _)
  obtain ⟨ms', fs', tail', h', p', d', i'⟩ := completeLoop_spec (b.length + k) b acc (by omega)
  obtain ⟨e1, e2⟩ := decomposition_unique p p' i i' (by rw [← d, ← d'])
  rw [h, h', e1, e2]

/-- Parsing in two steps equals parsing at once. -/
theorem completeMessages_append {b0 c1 c2 : Bytes} :
    ∃ ms1 ms2 b1 b2, completeMessages b0 c1 = (.ok ms1, b1) ∧ completeMessages b1 c2 = (.ok ms2, b2) ∧
      completeMessages b0 (c1 ++ c2) = (.ok (ms1 ++ ms2), b2) := by
  obtain ⟨ms1, fs1, b1, h1, p1, d1, i1⟩ := completeMessages_spec b0 c1
  obtain ⟨ms2, fs2, b2, h2, p2, d2, i2⟩ := completeMessages_spec b1 c2
  obtain ⟨ms, fs, b, h, p, d, i⟩ := completeMessages_spec b0 (c1 ++ c2)
  refine ⟨ms1, ms2, b1, b2, h1, h2, ?_⟩
  obtain ⟨e1, e2⟩ := decomposition_unique p (p1.append p2) i i2
    (by rw [← d, List.flatten_append, List.append_assoc, ← d2, ← List.append_assoc, d1, List.append_assoc])
  rw [h, e1, e2]

end SL
