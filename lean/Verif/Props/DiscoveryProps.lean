import Verif.Model.Discovery
import Verif.Props.TextExactProps
import Verif.Props.Codec
/-!
# C65, C66: discovery
-/
set_option linter.unusedVariables false

namespace SL
open Spec (u16 u32)

/-- A discovery response on the wire: the number 2, four bytes of IP address, the port, type, subtype, and the name in
UTF-8, possibly with NULs around it. -/
structure Response where
  a : UInt8
  b : UInt8
  c : UInt8
  d : UInt8
  port : Nat
  gtype : UInt8
  subtype : UInt8
  lead : Nat
  name : String
  trail : Nat
  portFits : port < 65536
  noLead : name.toList.head? ≠ some (Char.ofNat 0)
  noTrail : name.toList.getLast? ≠ some (Char.ofNat 0)

/-- Its bytes. -/
def Response.enc (r : Response) : Bytes :=
  u32 2 ++ [r.a, r.b, r.c, r.d] ++ u16 r.port ++ [r.gtype, r.subtype] ++ List.replicate r.lead 0 ++ r.name.toUTF8.data.toList ++
    List.replicate r.trail 0

/-- What has to be reported for it. -/
def Response.host (r : Response) : Host where
  ip := toString r.a.toNat ++ "." ++ toString r.b.toNat ++ "." ++ toString r.c.toNat ++ "." ++ toString r.d.toNat
  port := r.port
  gtype := r.gtype.toNat
  subtype := r.subtype.toNat
  name := r.name

theorem lead_split : ∀ s : List Char, ∃ k t, s = List.replicate k nul ++ t ∧ t.head? ≠ some nul
  | [] => ⟨0, [], rfl, by simp⟩
  | c :: s => by
    by_cases h : c = nul
    · obtain ⟨k, t, e, ht⟩ := lead_split s
      exact ⟨k + 1, t, by rw [e, h, List.replicate_succ]; rfl, ht⟩
    · exact ⟨0, c :: s, rfl, by simpa using h⟩

/-- Every text is a text without NULs at its ends, surrounded by NULs. -/
theorem nul_split (s : List Char) : ∃ k core m, s = List.replicate k nul ++ core ++ List.replicate m nul ∧
    core.head? ≠ some nul ∧ core.getLast? ≠ some nul := by
  obtain ⟨k, t, e, ht⟩ := lead_split s
  obtain ⟨m, u, e2, hu⟩ := lead_split t.reverse
  have e3 : t = u.reverse ++ List.replicate m nul := by
    have := congrArg List.reverse e2
    simpa using this
  refine ⟨k, u.reverse, m, by rw [e, e3]; simp, ?_, by simpa using hu⟩
  cases hr : u.reverse with
  | nil => simp
  | cons x xs =>
    rw [e3, hr] at ht
    simpa using ht

theorem utf8Encode_append (a b : List Char) : utf8Encode (a ++ b) = utf8Encode a ++ utf8Encode b := by
  simp [utf8Encode]

/-- The function on a datagram of at least 12 bytes. -/
theorem process_eq (x0 x1 x2 x3 a b c d p0 p1 g t : UInt8) (rest : Bytes) :
    processDiscoveryResponse (x0 :: x1 :: x2 :: x3 :: a :: b :: c :: d :: p0 :: p1 :: g :: t :: rest) =
      if leVal [x0, x1, x2, x3] ≠ 2 then .error .slError
      else
        match decodeText false rest with
        | .ok n => .ok ⟨toString a.toNat ++ "." ++ toString b.toNat ++ "." ++ toString c.toNat ++ "." ++ toString d.toNat,
            leVal [p0, p1], g.toNat, t.toNat, String.ofList (stripNul n)⟩
        | .error e => .error e := by
  have cast : ∀ n : Nat, ((n : Int) = 2) = (n = 2) := fun n => propext ⟨fun h => by omega, fun h => by omega⟩
  have one : ∀ x : UInt8, leVal [x] = x.toNat := fun x => by simp [leVal]
  have ts : ∀ n : Nat, toString (n : Int) = toString n := fun n => rfl
  generalize hD : x0 :: x1 :: x2 :: x3 :: a :: b :: c :: d :: p0 :: p1 :: g :: t :: rest = D
  have hlen : D.length = rest.length + 12 := by rw [← hD]; simp
  have g0 : getSome .I D 0 = .ok ((leVal [x0, x1, x2, x3] : Int), 4) := by
    rw [getSome_def, if_pos (by rw [hlen, Fmt.size]; omega), ← hD]; rfl
  have g1 : getSome .B D 4 = .ok ((leVal [a] : Int), 5) := by
    rw [getSome_def, if_pos (by rw [hlen, Fmt.size]; omega), ← hD]; rfl
  have g2 : getSome .B D 5 = .ok ((leVal [b] : Int), 6) := by
    rw [getSome_def, if_pos (by rw [hlen, Fmt.size]; omega), ← hD]; rfl
  have g3 : getSome .B D 6 = .ok ((leVal [c] : Int), 7) := by
    rw [getSome_def, if_pos (by rw [hlen, Fmt.size]; omega), ← hD]; rfl
  have g4 : getSome .B D 7 = .ok ((leVal [d] : Int), 8) := by
    rw [getSome_def, if_pos (by rw [hlen, Fmt.size]; omega), ← hD]; rfl
  have g5 : getSome .H D 8 = .ok ((leVal [p0, p1] : Int), 10) := by
    rw [getSome_def, if_pos (by rw [hlen, Fmt.size]; omega), ← hD]; rfl
  have g6 : getSome .B D 10 = .ok ((leVal [g] : Int), 11) := by
    rw [getSome_def, if_pos (by rw [hlen, Fmt.size]; omega), ← hD]; rfl
  have g7 : getSome .B D 11 = .ok ((leVal [t] : Int), 12) := by
    rw [getSome_def, if_pos (by rw [hlen, Fmt.size]; omega), ← hD]; rfl
  have g8 : getRaw (D.length - 12) D 12 = .ok (rest, D.length) := by
    rw [getRaw_def, if_pos (by omega), ← hD]
    simp
    omega
  unfold processDiscoveryResponse
  rw [g0, Except_bind_ok]
  simp only [ne_eq, cast]
  split
  · rfl
  · rw [g1, Except_bind_ok]; simp only
    rw [g2, Except_bind_ok]; simp only
    rw [g3, Except_bind_ok]; simp only
    rw [g4, Except_bind_ok]; simp only
    rw [g5, Except_bind_ok]; simp only
    rw [g6, Except_bind_ok]; simp only
    rw [g7, Except_bind_ok]; simp only
    rw [g8, Except_bind_ok]; simp only [one, ts]
    cases decodeText false rest <;> rfl

/-- Shorter datagrams are refused: with `struct.error` or, if the check value is there and wrong, `ScreenLogicError`. -/
theorem process_short (d : Bytes) (h : d.length < 12) :
    processDiscoveryResponse d = .error .structError ∨ processDiscoveryResponse d = .error .slError := by
  unfold processDiscoveryResponse
  have key : ∀ (f : Fmt) (off : Nat), (∃ v, getSome f d off = .ok (v, off + f.size)) ∨ getSome f d off = .error .structError := by
    intro f off
    rw [getSome_def]
    split
    · exact .inl ⟨_, rfl⟩
    · exact .inr rfl
  rcases key .I 0 with ⟨v, h1⟩ | h1
  · rw [h1, Except_bind_ok]
    simp only
    split
    · exact .inr rfl
    · left
      rcases key .B (0 + Fmt.I.size) with ⟨v, h1⟩ | h1
      · rw [h1, Except_bind_ok]; simp only
        rcases key .B (0 + Fmt.I.size + Fmt.B.size) with ⟨v, h1⟩ | h1
        · rw [h1, Except_bind_ok]; simp only
          rcases key .B (0 + Fmt.I.size + Fmt.B.size + Fmt.B.size) with ⟨v, h1⟩ | h1
          · rw [h1, Except_bind_ok]; simp only
            rcases key .B (0 + Fmt.I.size + Fmt.B.size + Fmt.B.size + Fmt.B.size) with ⟨v, h1⟩ | h1
            · rw [h1, Except_bind_ok]; simp only
              rcases key .H (0 + Fmt.I.size + Fmt.B.size + Fmt.B.size + Fmt.B.size + Fmt.B.size) with ⟨v, h1⟩ | h1
              · rw [h1, Except_bind_ok]; simp only
                rcases key .B (0 + Fmt.I.size + Fmt.B.size + Fmt.B.size + Fmt.B.size + Fmt.B.size + Fmt.H.size) with ⟨v, h1⟩ | h1
                · rw [h1, Except_bind_ok]; simp only
                  have h2 : getSome .B d (0 + Fmt.I.size + Fmt.B.size + Fmt.B.size + Fmt.B.size + Fmt.B.size + Fmt.H.size + Fmt.B.size) =
                      .error .structError := by
                    rw [getSome_def, if_neg]
                    simp only [Fmt.size]
                    omega
                  rw [h2]; rfl
                · rw [h1]; rfl
              · rw [h1]; rfl
            · rw [h1]; rfl
          · rw [h1]; rfl
        · rw [h1]; rfl
      · rw [h1]; rfl
  · left; rw [h1]; rfl

theorem utf8_lean (s : String) : s.toUTF8.data.toList = utf8Encode s.toList := (utf8Encode_eq_lean s).symm

theorem nul_bytes (k : Nat) : List.replicate k (0 : UInt8) = utf8Encode (List.replicate k nul) := (utf8Encode_nuls k).symm

/-- **C65**: a datagram is accepted exactly if it is a discovery response, and what is reported is what it encodes. -/
theorem C65_decoded (d : Bytes) (h : Host) : processDiscoveryResponse d = .ok h ↔ ∃ r : Response, d = r.enc ∧ h = r.host := by
  constructor
  · intro hk
    by_cases hl : d.length < 12
    · rcases process_short d hl with e | e <;> rw [e] at hk <;> cases hk
    · match d, hl, hk with
      | x0 :: x1 :: x2 :: x3 :: a :: b :: c :: d :: p0 :: p1 :: g :: t :: rest, _, hk =>
        rw [process_eq] at hk
        split at hk
        · cases hk
        · rename_i hx
          simp only [ne_eq, Decidable.not_not] at hx
          cases hn : decodeText false rest with
          | error e => rw [hn] at hk; cases hk
          | ok n =>
            rw [hn] at hk
            simp only [Except.ok.injEq] at hk
            obtain ⟨k, core, m, e, h1, h2⟩ := nul_split n
            have hraw : rest = utf8Encode n := by
              unfold decodeText at hn
              split at hn
              · rename_i n' hs
                simp only [Except.ok.injEq] at hn
                subst hn
                exact (utf8Decode_iff _ _).1 hs
              · cases hn
            have hp : leVal [p0, p1] < 65536 := by simpa using leVal_lt [p0, p1]
            refine ⟨⟨a, b, c, d, leVal [p0, p1], g, t, k, String.ofList core, m, hp, by rw [String.toList_ofList]; exact h1, by rw [String.toList_ofList]; exact h2⟩, ?_, ?_⟩
            · have hx' : [x0, x1, x2, x3] = u32 2 := by
                rw [u32_eq, ← hx]
                exact (leBytes_leVal [x0, x1, x2, x3]).symm
              have hp' : [p0, p1] = u16 (leVal [p0, p1]) := by
                rw [u16_eq]
                exact (leBytes_leVal [p0, p1]).symm
              simp only [Response.enc, utf8_lean, String.toList_ofList, nul_bytes]
              rw [← hx', ← hp', hraw, e]
              simp only [utf8Encode_append, List.append_assoc, List.cons_append, List.nil_append]
            · rw [← hk, e, stripNul_spec _ _ _ (by simp) (by simp) h1 h2]
              rfl
      | [], hl, _ => simp at hl
      | [_], hl, _ => simp at hl
      | [_, _], hl, _ => simp at hl
      | [_, _, _], hl, _ => simp at hl
      | [_, _, _, _], hl, _ => simp at hl
      | [_, _, _, _, _], hl, _ => simp at hl
      | [_, _, _, _, _, _], hl, _ => simp at hl
      | [_, _, _, _, _, _, _], hl, _ => simp at hl
      | [_, _, _, _, _, _, _, _], hl, _ => simp at hl
      | [_, _, _, _, _, _, _, _, _], hl, _ => simp at hl
      | [_, _, _, _, _, _, _, _, _, _], hl, _ => simp at hl
      | [_, _, _, _, _, _, _, _, _, _, _], hl, _ => simp at hl
  · rintro ⟨r, rfl, rfl⟩
    have e : r.enc = 2 :: 0 :: 0 :: 0 :: r.a :: r.b :: r.c :: r.d :: Spec.byte r.port :: Spec.byte (r.port / 256) :: r.gtype :: r.subtype ::
        utf8Encode (List.replicate r.lead nul ++ r.name.toList ++ List.replicate r.trail nul) := by
      have h2 : u32 2 = [2, 0, 0, 0] := by decide
      simp only [Response.enc, utf8_lean, nul_bytes, utf8Encode_append, h2, u16, List.append_assoc, List.cons_append, List.nil_append]
    rw [e, process_eq, if_neg (by decide)]
    have hd := decodeText_textBytes false (List.replicate r.lead nul ++ r.name.toList ++ List.replicate r.trail nul)
    simp only [textBytes, Bool.false_eq_true, if_false] at hd
    rw [hd]
    simp only
    rw [stripNul_spec _ _ _ (by simp) (by simp) r.noLead r.noTrail, String.ofList_toList]
    have hp : leVal [Spec.byte r.port, Spec.byte (r.port / 256)] = r.port := leVal_u16 r.portFits
    rw [hp]
    rfl

/-- **C65**: a datagram with another check value, or too short, is refused with `ScreenLogicError` or `struct.error`. -/
theorem C65_refused (d : Bytes) : (d.length < 12 → processDiscoveryResponse d = .error .structError ∨ processDiscoveryResponse d = .error .slError) ∧
    (4 ≤ d.length → d.take 4 ≠ u32 2 → processDiscoveryResponse d = .error .slError) := by
  refine ⟨process_short d, fun hl hc => ?_⟩
  unfold processDiscoveryResponse
  rw [getSome_def, if_pos (by simpa [Fmt.size] using hl), Except_bind_ok]
  simp only [Fmt.size, Fmt.value, List.drop_zero]
  rw [if_pos]
  intro h
  apply hc
  have h' : leVal (d.take 4) = 2 := by omega
  rw [u32_eq, ← h']
  exact (leBytes_leVal' (by simp; omega)).symm

/-- **C66**: what discovery returns are exactly the well-formed responses among the datagrams, in order of arrival, each as
often as it came; no datagram makes it fail or hides another. -/
theorem C66_hosts (ds : List Bytes) : ∃ hs : List (Option Host), hs.length = ds.length ∧
    (∀ i (hi : i < ds.length), ∀ h, hs[i]? = some (some h) ↔ ∃ r : Response, ds[i] = r.enc ∧ h = r.host) ∧
    discoveredHosts ds = hs.filterMap id := by
  refine ⟨ds.map (fun d => (processDiscoveryResponse d).toOption), by simp, ?_, ?_⟩
  · intro i hi h
    rw [List.getElem?_map, List.getElem?_eq_getElem hi, Option.map_some, Option.some.injEq, ← C65_decoded]
    cases processDiscoveryResponse ds[i] <;> simp [Except.toOption]
  · have key : ∀ (ds : List Bytes) (acc : List Host), ds.foldl datagramReceived acc =
        acc ++ (ds.map (fun d => (processDiscoveryResponse d).toOption)).filterMap id := by
      intro ds
      induction ds with
      | nil => intro acc; simp
      | cons d ds ih =>
        intro acc
        rw [List.foldl_cons, ih, datagramReceived]
        cases hp : processDiscoveryResponse d <;> simp [Except.toOption, hp]
    rw [discoveredHosts, key, List.nil_append]

/-- **C66**, incrementally: a datagram adds the host it encodes and changes nothing else, or nothing if it is none. -/
theorem C66_step (ds : List Bytes) (d : Bytes) :
    (∃ r : Response, d = r.enc ∧ discoveredHosts (ds ++ [d]) = discoveredHosts ds ++ [r.host]) ∨
    ((∀ r : Response, d ≠ r.enc) ∧ discoveredHosts (ds ++ [d]) = discoveredHosts ds) := by
  simp only [discoveredHosts, List.foldl_append, List.foldl_cons, List.foldl_nil]
  generalize ds.foldl datagramReceived [] = hs
  unfold datagramReceived
  split
  · rename_i h hk
    obtain ⟨r, h1, h2⟩ := (C65_decoded d h).1 hk
    exact .inl ⟨r, h1, by rw [h2]⟩
  · rename_i e hk
    refine .inr ⟨fun r hr => ?_, rfl⟩
    rw [(C65_decoded d r.host).2 ⟨r, hr, rfl⟩] at hk
    cases hk

/-- A response. -/
def sampleResponse : Response := ⟨192, 168, 1, 50, 80, 2, 12, 0, "Pentair: 00-C0-33", 3, by decide, by decide, by decide⟩

/-- Concrete cases: a response, garbage and a response that is cut short, in one sequence. -/
theorem C66_witness : sampleResponse.host = ⟨"192.168.1.50", 80, 2, 12, "Pentair: 00-C0-33"⟩ ∧
    discoveredHosts [[1, 2, 3], sampleResponse.enc, sampleResponse.enc.take 10, sampleResponse.enc] = [sampleResponse.host, sampleResponse.host] := by
  decide +kernel

end SL
