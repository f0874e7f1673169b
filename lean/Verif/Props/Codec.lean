import Verif.Lemmas.Wire
/-!
# C01–C03, C07, C08: message framing, arrays, fixed-width reads
-/
namespace SL
open Spec

/-- C01 (what is produced): `makeMessage` yields exactly the documented frame when id and code are
16-bit and the payload length is 32-bit, and raises `struct.error` otherwise. -/
theorem C01_make_message (id code : Int) (d : Bytes) :
    makeMessage id code d =
      if 0 ≤ id ∧ id ≤ 65535 ∧ 0 ≤ code ∧ code ≤ 65535 ∧ d.length < 2 ^ 32 then
        .ok (frame id.toNat code.toNat d)
      else .error .structError := by
  unfold makeMessage packU
  rw [frame_eq]
  have c1 : (0 ≤ id ∧ id < 256 ^ 2) ↔ (0 ≤ id ∧ id ≤ 65535) := by omega
  have c2 : (0 ≤ code ∧ code < 256 ^ 2) ↔ (0 ≤ code ∧ code ≤ 65535) := by omega
  have c3 : (0 ≤ (d.length : Int) ∧ (d.length : Int) < 256 ^ 4) ↔ d.length < 2 ^ 32 := by omega
  simp only [c1, c2, c3, Int.toNat_natCast]
  by_cases h1 : 0 ≤ id ∧ id ≤ 65535
  · by_cases h2 : 0 ≤ code ∧ code ≤ 65535
    · by_cases h3 : d.length < 2 ^ 32
      · simp only [h1, h2, h3, and_self, if_true]; rfl
      · simp only [h1, h2, h3, and_self, and_false, if_true, if_false]; rfl
    · have : ¬ (0 ≤ id ∧ id ≤ 65535 ∧ 0 ≤ code ∧ code ≤ 65535 ∧ d.length < 2 ^ 32) := by omega
      rw [if_neg this]; simp only [h1, h2, and_self, if_true, if_false]; rfl
  · have : ¬ (0 ≤ id ∧ id ≤ 65535 ∧ 0 ≤ code ∧ code ≤ 65535 ∧ d.length < 2 ^ 32) := by omega
    rw [if_neg this]; simp only [h1, if_false]; rfl

theorem takeMessage_frame {id code : Nat} {d : Bytes} (h1 : id < 65536) (h2 : code < 65536)
    (h3 : d.length < 2 ^ 32) : takeMessage (frame id code d) = .ok ⟨id, code, d⟩ := by
  unfold takeMessage
  have hl := length_frame id code d
  rw [if_neg (by unfold headerLength; omega)]
  have e1 : (frame id code d).take 2 = u16 id := by simp [frame, u16]
  have e2 : ((frame id code d).drop 2).take 2 = u16 code := by simp [frame, u16]
  have e3 : ((frame id code d).drop 4).take 4 = u32 d.length := by simp [frame, u16, u32]
  have e4 : (frame id code d).drop headerLength = d := by simp [frame, u16, u32, headerLength]
  simp only [e1, e2, e3, e4, leVal_u16 h1, leVal_u16 h2, leVal_u32 h3]
  rw [if_neg (by unfold headerLength; omega)]

/-- C01 (round trip): whatever `makeMessage` produced, `takeMessage` gives back the same id, code
and payload, and the message is exactly 8 bytes longer than its payload. -/
theorem C01_message_roundtrip (id code : Int) (d bs : Bytes) (h : makeMessage id code d = .ok bs) :
    takeMessage bs = .ok ⟨id, code, d⟩ ∧ bs.length = d.length + 8 := by
  rw [C01_make_message] at h
  split at h
  · rename_i hr
    injection h with h; subst h
    rw [takeMessage_frame (by omega) (by omega) hr.2.2.2.2, length_frame]
    refine ⟨?_, by omega⟩
    rw [Int.toNat_of_nonneg hr.1, Int.toNat_of_nonneg hr.2.2.1]
  · simp at h

example : makeMessage 32766 12526 [1, 0, 0, 0, 255] =
    .ok [0xFE, 0x7F, 0xEE, 0x30, 5, 0, 0, 0, 1, 0, 0, 0, 255] := by decide

/-- C02: `takeMessage` returns a triple exactly for the bytes `makeMessage` produces for that
triple (so nothing malformed is ever accepted or mis-parsed). -/
theorem C02_take_message_iff (d : Bytes) (m : Msg) :
    takeMessage d = .ok m ↔ makeMessage m.id m.code m.data = .ok d := by
  constructor
  · intro h
    unfold takeMessage at h
    split at h
    · simp at h
    · rename_i hl
      simp only [headerLength] at hl h
      by_cases hn : leVal (List.take 4 (List.drop 4 d)) = d.length - 8
      case neg => simp [hn] at h
      case pos =>
        rw [if_neg (by simp [hn])] at h
        injection h with h; subst h
        have l1 : (d.take 2).length = 2 := by simp; omega
        have l2 : ((d.drop 2).take 2).length = 2 := by simp; omega
        have l3 : ((d.drop 4).take 4).length = 4 := by simp; omega
        have b1 := leVal_lt (d.take 2)
        have b2 := leVal_lt ((d.drop 2).take 2)
        have b3 := leVal_lt ((d.drop 4).take 4)
        rw [l1] at b1; rw [l2] at b2; rw [l3] at b3
        have hlen : (d.drop 8).length = d.length - 8 := by simp
        rw [C01_make_message, if_pos (by simp only; omega), frame_eq]
        simp only [Int.toNat_natCast]
        rw [leBytes_leVal' l1, leBytes_leVal' l2, hlen, ← hn, leBytes_leVal' l3]
        have : d = d.take 2 ++ (d.drop 2).take 2 ++ (d.drop 4).take 4 ++ d.drop 8 := by
          rw [← List.drop_drop (i := 4) (j := 4), List.append_assoc, List.take_append_drop,
            ← List.drop_drop (i := 2) (j := 2), List.append_assoc, List.take_append_drop, List.take_append_drop]
        rw [← this]
  · intro h
    exact (C01_message_roundtrip _ _ _ _ h).1

/-- C02 (errors): everything else is rejected: with `struct.error` when shorter than a header, with
`ScreenLogicError` when the length field is wrong. -/
theorem C02_take_message_rejects (d : Bytes)
    (h : ∀ id code payload, makeMessage id code payload ≠ .ok d) :
    takeMessage d = .error (if d.length < 8 then .structError else .slError) := by
  cases ht : takeMessage d with
  | ok m => exact absurd ((C02_take_message_iff d m).1 ht) (h _ _ _)
  | error e =>
    unfold takeMessage headerLength at ht
    split at ht
    · rename_i hl; rw [if_pos hl]; exact ht.symm
    · rename_i hl
      rw [if_neg hl]
      simp only at ht
      split at ht
      · exact ht.symm
      · simp at ht

example : takeMessage [1, 0, 2, 0, 1, 0, 0, 0, 9] = .ok ⟨1, 2, [9]⟩ := by decide
example : takeMessage [1, 0, 2, 0, 2, 0, 0, 0, 9] = .error .slError := by decide
example : ∀ id code payload, makeMessage id code payload ≠ .ok [1, 0, 2, 0, 2, 0, 0, 0, 9] := by
  intro i c p h; rw [← C02_take_message_iff _ ⟨i, c, p⟩] at h; revert h
  rw [show takeMessage [1, 0, 2, 0, 2, 0, 0, 0, 9] = .error .slError by decide]; simp

/-! ### C03 -/

theorem takeOne_frame (pre post : Bytes) {id code : Nat} {d : Bytes} (h1 : id < 65536)
    (h2 : code < 65536) (h3 : d.length < 2 ^ 32) :
    takeOne (pre ++ (frame id code d ++ post)) pre.length =
      .ok (⟨id, code, d⟩, pre.length + (frame id code d).length) := by
  unfold takeOne
  have e1 : pre ++ (frame id code d ++ post)
      = pre ++ (u16 id ++ (u16 code ++ u32 d.length ++ d ++ post)) := by simp [frame]
  have e2 : pre ++ (frame id code d ++ post)
      = (pre ++ u16 id) ++ (u16 code ++ (u32 d.length ++ d ++ post)) := by simp [frame]
  have e3 : pre ++ (frame id code d ++ post)
      = (pre ++ u16 id ++ u16 code) ++ (u32 d.length ++ (d ++ post)) := by simp [frame]
  have e4 : pre ++ (frame id code d ++ post)
      = (pre ++ u16 id ++ u16 code ++ u32 d.length) ++ (d ++ post) := by simp [frame]
  have s1 := getSome_append .H pre (u16 id) (u16 code ++ u32 d.length ++ d ++ post)
    (off := pre.length) rfl rfl
  have s2 := getSome_append .H (pre ++ u16 id) (u16 code) (u32 d.length ++ d ++ post)
    (off := pre.length + 2) rfl (by simp)
  have s3 := getSome_append .I (pre ++ u16 id ++ u16 code) (u32 d.length) (d ++ post)
    (off := pre.length + 2 + 2) rfl (by simp)
  have s4 := getRaw_append (pre ++ u16 id ++ u16 code ++ u32 d.length) d post
    (off := pre.length + 2 + 2 + 4) (n := d.length) rfl (by simp)
  rw [← e1] at s1; rw [← e2] at s2; rw [← e3] at s3; rw [← e4] at s4
  simp only [s1, Except_bind_ok, Fmt.size, s2, s3, Fmt.value, leVal_u32 h3, Int.toNat_natCast, s4,
    leVal_u16 h1, leVal_u16 h2, length_frame]
  simp only [pure, Except.pure]
  congr 2; omega

theorem takeOne_ok {d : Bytes} {pos : Nat} {m : Msg} {pos' : Nat} (h : takeOne d pos = .ok (m, pos')) :
    ∃ f, makeMessage m.id m.code m.data = .ok f ∧ pos' = pos + f.length ∧
      d.drop pos = f ++ d.drop pos' ∧ pos' ≤ d.length ∧ 8 ≤ f.length := by
  unfold takeOne at h
  rw [Except_bind_eq_ok] at h; obtain ⟨r1, h1, h⟩ := h
  rw [getSome_eq_ok] at h1; obtain ⟨g1, rfl⟩ := h1
  rw [Except_bind_eq_ok] at h; obtain ⟨r2, h2, h⟩ := h
  rw [getSome_eq_ok] at h2; obtain ⟨g2, rfl⟩ := h2
  rw [Except_bind_eq_ok] at h; obtain ⟨r3, h3, h⟩ := h
  rw [getSome_eq_ok] at h3; obtain ⟨g3, rfl⟩ := h3
  rw [Except_bind_eq_ok] at h; obtain ⟨r4, h4, h⟩ := h
  rw [getRaw_eq_ok] at h4; obtain ⟨g4, rfl⟩ := h4
  simp only [pure, Except.pure, Except.ok.injEq, Prod.mk.injEq, Fmt.size, Fmt.value, Int.toNat_natCast] at *
  obtain ⟨rfl, rfl⟩ := h
  generalize hN : leVal ((d.drop (pos + 2 + 2)).take 4) = N at *
  have l1 : ((d.drop pos).take 2).length = 2 := by simp; omega
  have l2 : ((d.drop (pos + 2)).take 2).length = 2 := by simp; omega
  have l3 : ((d.drop (pos + 2 + 2)).take 4).length = 4 := by simp; omega
  have b1 := leVal_lt ((d.drop pos).take 2)
  have b2 := leVal_lt ((d.drop (pos + 2)).take 2)
  have b3 := leVal_lt ((d.drop (pos + 2 + 2)).take 4)
  rw [l1] at b1; rw [l2] at b2; rw [l3, hN] at b3
  have hlen : ((d.drop (pos + 2 + 2 + 4)).take N).length = N := by simp; omega
  refine ⟨_, by rw [C01_make_message, if_pos (by simp only [hlen]; omega)], ?_⟩
  rw [length_frame]
  simp only [hlen]
  refine ⟨by omega, ?_, by omega, by omega⟩
  rw [frame_eq, hlen]
  simp only [Int.toNat_natCast]
  rw [leBytes_leVal' l1, leBytes_leVal' l2, ← hN, leBytes_leVal' l3, hN]
  have a1 : d.drop (pos + 2) = (d.drop pos).drop 2 := by rw [List.drop_drop]
  have a2 : d.drop (pos + 2 + 2) = (d.drop pos).drop 4 := by rw [List.drop_drop]
  have a3 : d.drop (pos + 2 + 2 + 4) = (d.drop pos).drop 8 := by rw [List.drop_drop]
  have a4 : d.drop (pos + 2 + 2 + 4 + N) = (d.drop pos).drop (8 + N) := by rw [List.drop_drop]; congr 1; omega
  rw [a1, a2, a3, a4]
  generalize d.drop pos = x
  simp only [List.append_assoc]
  rw [← List.drop_drop, List.take_append_drop, ← List.drop_drop (i := 4) (j := 4),
    List.take_append_drop, ← List.drop_drop (i := 2) (j := 2), List.take_append_drop, List.take_append_drop]

/-- The messages `ms` are packed by `makeMessage`, one by one, as the byte strings `fs`. -/
inductive Packed : List Msg → List Bytes → Prop
  | nil : Packed [] []
  | cons {m : Msg} {f : Bytes} {ms : List Msg} {fs : List Bytes} :
      makeMessage m.id m.code m.data = .ok f → Packed ms fs → Packed (m :: ms) (f :: fs)

theorem takeMessagesLoop_frames {ms : List Msg} {fs : List Bytes} (h : Packed ms fs) :
    ∀ (fuel : Nat) (pre : Bytes) (acc : List Msg), fs.flatten.length < fuel →
      takeMessagesLoop (pre ++ fs.flatten) fuel pre.length acc = .ok (acc ++ ms) := by
  induction h with
  | nil =>
    intro fuel pre acc hf
    cases fuel with
    | zero => omega
    | succ fuel => simp [takeMessagesLoop]
  | @cons m f ms fs hm _ ih =>
    intro fuel pre acc hf
    cases fuel with
    | zero => omega
    | succ fuel =>
      rw [C01_make_message] at hm
      split at hm
      · rename_i hr
        injection hm with hm
        have hfl : f.length = 8 + m.data.length := by rw [← hm, length_frame]
        simp only [List.flatten_cons, List.length_append] at hf
        simp only [takeMessagesLoop, List.flatten_cons, List.length_append]
        rw [if_pos (by omega), ← hm, takeOne_frame _ _ (by omega) (by omega) hr.2.2.2.2, hm]
        simp only
        have := ih fuel (pre ++ f) (acc ++ [m]) (by omega)
        rw [List.length_append, List.append_assoc] at this
        rw [Int.toNat_of_nonneg hr.1, Int.toNat_of_nonneg hr.2.2.1, this]
        simp
      · simp at hm

theorem takeMessagesLoop_ok {d : Bytes} : ∀ (fuel pos : Nat) (acc r : List Msg), pos ≤ d.length →
    d.length < pos + fuel →
    takeMessagesLoop d fuel pos acc = .ok r →
      ∃ ms fs, r = acc ++ ms ∧ Packed ms fs ∧ d.drop pos = fs.flatten := by
  intro fuel
  induction fuel with
  | zero => intro pos acc r _ h2; omega
  | succ fuel ih =>
    intro pos acc r hp hfu h
    unfold takeMessagesLoop at h
    split at h
    · split at h
      · rename_i m pos' ho
        obtain ⟨f, hf, hpos, hd, hle, h8⟩ := takeOne_ok ho
        obtain ⟨ms, fs, hr, hpk, hfl⟩ := ih _ _ _ hle (by omega) h
        exact ⟨m :: ms, f :: fs, by simp [hr], .cons hf hpk, by rw [hd, hfl]; simp⟩
      · simp at h
    · injection h with h
      exact ⟨[], [], by simp [h], .nil, by simp; omega⟩

theorem takeOne_error {d : Bytes} {pos : Nat} {e : PyErr} (h : takeOne d pos = .error e) :
    e = .structError := by
  unfold takeOne at h
  cases h1 : getSome .H d pos with
  | error e' => simp only [h1, Except_bind_error] at h; injection h with h; rw [← h]; exact (getSome_error h1).1
  | ok r1 =>
    simp only [h1, Except_bind_ok] at h
    cases h2 : getSome .H d r1.2 with
    | error e' => simp only [h2, Except_bind_error] at h; injection h with h; rw [← h]; exact (getSome_error h2).1
    | ok r2 =>
      simp only [h2, Except_bind_ok] at h
      cases h3 : getSome .I d r2.2 with
      | error e' => simp only [h3, Except_bind_error] at h; injection h with h; rw [← h]; exact (getSome_error h3).1
      | ok r3 =>
        simp only [h3, Except_bind_ok] at h
        cases h4 : getRaw r3.1.toNat d r3.2 with
        | error e' => simp only [h4, Except_bind_error] at h; injection h with h; rw [← h]; exact (getRaw_error h4).1
        | ok r4 => simp only [h4, Except_bind_ok, pure, Except.pure] at h; simp at h

theorem takeMessagesLoop_error {d : Bytes} : ∀ (fuel pos : Nat) (acc : List Msg) (e : PyErr),
    takeMessagesLoop d fuel pos acc = .error e → e = .structError := by
  intro fuel
  induction fuel with
  | zero => intro pos acc e h; simp [takeMessagesLoop] at h
  | succ fuel ih =>
    intro pos acc e h
    unfold takeMessagesLoop at h
    split at h
    · split at h
      · exact ih _ _ _ h
      · rename_i ho; injection h with h; subst h; exact takeOne_error ho
    · simp at h

/-- The fuel of the model's loop is never exhausted: more fuel gives the same result. -/
theorem takeMessages_fuel (d : Bytes) : ∀ (fuel pos : Nat) (acc : List Msg),
    d.length < pos + fuel →
    takeMessagesLoop d fuel pos acc = takeMessagesLoop d (fuel + 1) pos acc := by
  intro fuel
  induction fuel with
  | zero => intro pos acc h; simp [takeMessagesLoop]; omega
  | succ fuel ih =>
    intro pos acc h
    rw [takeMessagesLoop, takeMessagesLoop]
    split
    · cases ho : takeOne d pos with
      | error e => rfl
      | ok r =>
        obtain ⟨m, pos'⟩ := r
        obtain ⟨f, -, hpos, -, -, h8⟩ := takeOne_ok ho
        simp only
        exact ih _ _ (by omega)
    · rfl

/-- C03: `takeMessages` returns a list of messages exactly when its input is the concatenation of
those messages packed by `makeMessage`, in that order. -/
theorem C03_take_messages_iff (d : Bytes) (ms : List Msg) :
    takeMessages d = .ok ms ↔
      ∃ fs : List Bytes, Packed ms fs ∧ d = fs.flatten := by
  constructor
  · intro h
    unfold takeMessages at h
    cases hl : takeMessagesLoop d (d.length + 1) 0 [] with
    | error e => rw [hl] at h; cases e <;> simp at h
    | ok r =>
      rw [hl] at h; simp only [Except.ok.injEq] at h; subst h
      obtain ⟨ms, fs, hr, hp, hd⟩ := takeMessagesLoop_ok _ _ _ _ (by omega) (by omega) hl
      simp only [List.nil_append] at hr; subst hr
      exact ⟨fs, hp, by simpa using hd⟩
  · rintro ⟨fs, hp, rfl⟩
    have := takeMessagesLoop_frames hp (fs.flatten.length + 1) [] [] (by omega)
    unfold takeMessages
    simp only [List.nil_append, List.length_nil] at this
    rw [this]

/-- C03 (errors): on any other input `takeMessages` raises `ScreenLogicError`, never another error. -/
theorem C03_take_messages_error (d : Bytes) (e : PyErr) (h : takeMessages d = .error e) :
    e = .slError := by
  unfold takeMessages at h
  cases hl : takeMessagesLoop d (d.length + 1) 0 [] with
  | error e' =>
    have := takeMessagesLoop_error _ _ _ _ hl
    subst this; rw [hl] at h; simp at h; exact h.symm
  | ok r => rw [hl] at h; simp at h

example : takeMessages [1, 0, 2, 0, 1, 0, 0, 0, 9, 3, 0, 4, 0, 0, 0, 0, 0] =
    .ok [⟨1, 2, [9]⟩, ⟨3, 4, []⟩] := by decide
example : takeMessages [1, 0, 2, 0, 1, 0, 0, 0, 9, 3] = .error .slError := by decide

/-! ### C08 -/

/-- The number a field denotes, spelled out on its bytes. -/
def fieldValue : Fmt → Bytes → Option Int
  | .B, [a] => some a.toNat
  | .H, [a, b] => some (a.toNat + 256 * b.toNat)
  | .beH, [a, b] => some (256 * a.toNat + b.toNat)
  | .I, [a, b, c, d] =>
      some (a.toNat + 256 * b.toNat + 65536 * c.toNat + 16777216 * d.toNat)
  | .beI, [a, b, c, d] =>
      some (16777216 * a.toNat + 65536 * b.toNat + 256 * c.toNat + d.toNat)
  | .i, [a, b, c, d] =>
      let u : Int := a.toNat + 256 * b.toNat + 65536 * c.toNat + 16777216 * d.toNat
      some (if d.toNat < 128 then u else u - 4294967296)
  | _, _ => none

theorem fieldValue_eq (f : Fmt) (bs : Bytes) (h : bs.length = f.size) :
    fieldValue f bs = some (f.value bs) := by
  cases f <;> simp only [Fmt.size] at h
  · match bs, h with
    | [a], _ => simp [fieldValue, Fmt.value, leVal]
  · match bs, h with
    | [a, b], _ => simp [fieldValue, Fmt.value, leVal]
  · match bs, h with
    | [a, b, c, d], _ => simp only [fieldValue, Fmt.value, leVal]; congr 1; omega
  · match bs, h with
    | [a, b, c, d], _ =>
      have := a.toNat_lt; have := b.toNat_lt; have := c.toNat_lt; have := d.toNat_lt
      have hv : leVal [a, b, c, d] =
          a.toNat + 256 * b.toNat + 65536 * c.toNat + 16777216 * d.toNat := by
        simp only [leVal]; omega
      simp only [fieldValue, Fmt.value]
      congr 1
      by_cases hd : d.toNat < 128
      · rw [if_pos hd, if_pos (by omega), hv]; omega
      · rw [if_neg hd, if_neg (by omega), hv]; omega
  · match bs, h with
    | [a, b], _ => simp [fieldValue, Fmt.value, leVal]; omega
  · match bs, h with
    | [a, b, c, d], _ =>
      simp only [fieldValue, Fmt.value, leVal, List.reverse_cons, List.reverse_nil, List.nil_append,
        List.cons_append]
      congr 1; omega

/-- C08: a fixed-width read at offset `off` of a buffer `pre ++ field ++ post` (with `pre` of length
`off`) returns the number the field's bytes denote, whatever `pre` and `post` are, and the offset
just past the field. -/
theorem C08_read_exact (f : Fmt) (pre field post : Bytes) (h : field.length = f.size) :
    ∃ v, fieldValue f field = some v ∧
      getSome f (pre ++ field ++ post) pre.length = .ok (v, pre.length + field.length) := by
  refine ⟨f.value field, fieldValue_eq f field h, ?_⟩
  rw [List.append_assoc, getSome_append f pre field post h rfl, h]

/-- C08: it raises (and only `struct.error`) exactly when the field does not fit in the buffer. -/
theorem C08_read_bounds (f : Fmt) (buff : Bytes) (off : Nat) :
    (off + f.size ≤ buff.length ∧ ∃ r, getSome f buff off = .ok r) ∨
    (buff.length < off + f.size ∧ getSome f buff off = .error .structError) := by
  rw [getSome_def]
  split
  · exact .inl ⟨by assumption, _, rfl⟩
  · exact .inr ⟨by omega, rfl⟩

/-- C08: same for raw byte fields. -/
theorem C08_raw_exact (pre field post : Bytes) :
    getRaw field.length (pre ++ field ++ post) pre.length =
      .ok (field, pre.length + field.length) := by
  rw [List.append_assoc, getRaw_append pre field post rfl rfl]

theorem C08_raw_bounds (n : Nat) (buff : Bytes) (off : Nat) :
    (off + n ≤ buff.length ∧ ∃ r, getRaw n buff off = .ok r) ∨
    (buff.length < off + n ∧ getRaw n buff off = .error .structError) := by
  rw [getRaw_def]
  split
  · exact .inl ⟨by assumption, _, rfl⟩
  · exact .inr ⟨by omega, rfl⟩

example : getSome .i [7, 0xFE, 0xFF, 0xFF, 0xFF, 9] 1 = .ok (-2, 5) := by decide
example : getSome .beH [1, 2, 3] 1 = .ok (515, 3) := by decide
example : getSome .H [1, 2, 3] 2 = .error .structError := by decide

/-! ### C07 -/

theorem getArrayItems_append (pre items post : Bytes) : ∀ n, n ≤ items.length →
    getArrayItems (pre ++ (items ++ post)) pre.length n =
      .ok ((items.take n).map (fun b => (b.toNat : Int))) := by
  intro n
  induction n with
  | zero => intro _; simp [getArrayItems]
  | succ n ih =>
    intro hn
    unfold getArrayItems
    rw [ih (by omega), Except_bind_ok]
    have hb : items = items.take n ++ (items[n] :: items.drop (n + 1)) := by
      rw [List.getElem_cons_drop, List.take_append_drop]
    have e : pre ++ (items ++ post) = (pre ++ items.take n) ++ ([items[n]] ++ (items.drop (n + 1) ++ post)) := by
      conv => lhs; rw [hb]
      simp only [List.append_assoc, List.cons_append, List.nil_append]
    rw [e, getSome_append .B _ [items[n]] _ rfl (by simp; omega), Except_bind_ok]
    simp only [pure, Except.pure, Fmt.value, leVal]
    congr 1
    rw [List.take_succ_eq_append_getElem (by omega), List.map_append]
    simp only [List.map_cons, List.map_nil]; congr 1

/-- C07: reading an array field — a 32-bit count, that many bytes, zero padding to a multiple of 4 —
embedded anywhere in a buffer returns the items, and the offset of the byte after the padding. -/
theorem C07_get_array (pre items post : Bytes) (h : items.length < 2 ^ 32) :
    getArray (pre ++ block items ++ post) pre.length =
      .ok (items.map (fun b => (b.toNat : Int)), pre.length + (block items).length) := by
  unfold getArray
  have e : pre ++ block items ++ post =
      pre ++ (u32 items.length ++ (items ++ (List.replicate (pad4 items.length) 0 ++ post))) := by
    simp [block]
  rw [e, getSome_append .I _ _ _ rfl rfl, Except_bind_ok]
  simp only [Fmt.value, Fmt.size, leVal_u32 h, Int.toNat_natCast]
  have e2 : pre ++ (u32 items.length ++ (items ++ (List.replicate (pad4 items.length) 0 ++ post))) =
      (pre ++ u32 items.length) ++ (items ++ (List.replicate (pad4 items.length) 0 ++ post)) := by simp
  have hl : (pre ++ u32 items.length).length = pre.length + 4 := by simp
  rw [e2]
  have := getArrayItems_append (pre ++ u32 items.length) items
    (List.replicate (pad4 items.length) 0 ++ post) items.length (by omega)
  rw [hl] at this
  rw [this, Except_bind_ok, List.take_length]
  simp only [pure, Except.pure, block, List.length_append, length_u32, List.length_replicate, pad4]
  congr 2
  unfold arrayPaddedLen; simp only; split <;> omega

/-- C07 (bounds): if an array read succeeds, the count and all items were inside the buffer. -/
theorem C07_get_array_ok (buff : Bytes) (off : Nat) (xs : List Int) (off' : Nat)
    (h : getArray buff off = .ok (xs, off')) :
    off + 4 + xs.length ≤ buff.length ∧ xs = ((buff.drop (off + 4)).take xs.length).map (fun b => (b.toNat : Int))
      ∧ off + 4 + xs.length ≤ off' ∧ off' < off + 8 + xs.length := by
  unfold getArray at h
  rw [Except_bind_eq_ok] at h; obtain ⟨r, h1, h⟩ := h
  rw [getSome_eq_ok] at h1; obtain ⟨hb, rfl⟩ := h1
  simp only [Fmt.size, Fmt.value, Int.toNat_natCast] at h hb
  generalize leVal ((buff.drop off).take 4) = N at h
  rw [Except_bind_eq_ok] at h; obtain ⟨ys, h2, h⟩ := h
  simp only [pure, Except.pure, Except.ok.injEq, Prod.mk.injEq] at h
  obtain ⟨rfl, rfl⟩ := h
  have key : ∀ n ys, getArrayItems buff (off + 4) n = .ok ys →
      ys.length = n ∧ off + 4 + n ≤ buff.length ∧
        ys = ((buff.drop (off + 4)).take n).map (fun b => (b.toNat : Int)) := by
    intro n
    induction n with
    | zero => intro ys h; simp [getArrayItems] at h; subst h; simp; omega
    | succ n ih =>
      intro ys h
      unfold getArrayItems at h
      rw [Except_bind_eq_ok] at h; obtain ⟨zs, h1, h⟩ := h
      rw [Except_bind_eq_ok] at h; obtain ⟨r, h2, h⟩ := h
      rw [getSome_eq_ok] at h2; obtain ⟨hb2, rfl⟩ := h2
      simp only [Fmt.size] at hb2
      simp only [pure, Except.pure, Except.ok.injEq] at h
      obtain ⟨i1, i2, i3⟩ := ih _ h1
      subst h
      refine ⟨by simp [i1], by omega, ?_⟩
      rw [i3, List.take_succ_eq_append_getElem (by simp; omega)]
      simp only [List.map_append, List.map_cons, List.map_nil]
      congr 1
      have : (buff.drop (off + 4 + n)).take 1 = [buff[off + 4 + n]] := by
        rw [List.drop_eq_getElem_cons (by omega)]; rfl
      simp [Fmt.value, Fmt.size, this, leVal]
  obtain ⟨k1, k2, k3⟩ := key _ _ h2
  rw [k1]
  refine ⟨k2, k3, ?_, ?_⟩ <;> unfold arrayPaddedLen <;> simp only <;> split <;> omega

example : getArray ([9] ++ block [1, 2, 3, 4, 5] ++ [7]) 1 = .ok ([1, 2, 3, 4, 5], 13) := by decide

end SL
