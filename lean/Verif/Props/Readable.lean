import Verif.Spec.Readable
import Verif.Proofs.Sound
import Verif.Props.Messages
import Mathlib.Data.List.Induction

/-! # C73: exactly which server messages the decoder reads -/

namespace ETls
open Spec

variable (S : Suite)

/-! ## The payload parsers -/

/-- A parser accepts a string if it reads some prefix of it. -/
theorem reads_prefix {α : Type} {m : P α} {bs rest : Bytes} {a : α} (h : Reads m bs (.ok a)) :
    (m (PB.new (bs ++ rest))).1 = .ok a := by
  have := (h [] rest).1
  simpa [PB.new] using this

theorem sound_new {ε α : Type} {m : M ε PB α} {R : Bytes → α → Prop} (h : Sound m R) {d : Bytes} {a : α}
    (hm : (m (PB.new d)).1 = .ok a) : ∃ bs rest, R bs a ∧ d = bs ++ rest := by
  rcases hp : m (PB.new d) with ⟨r, p⟩
  rw [hp] at hm
  simp only at hm
  subst hm
  obtain ⟨bs, r1, d1, -, -⟩ := h d 0 a p (Nat.zero_le _) hp
  exact ⟨bs, _, r1, by simpa using d1⟩

theorem readListLoop_cap {ε α : Type} (cap : Nat) (full : ε) (read : M ε PB α) (fuel : Nat) :
    ∀ (acc : List α) (p : PB) (res : List α), acc.length ≤ cap →
    (PB.readListLoop cap full read fuel acc p).1 = .ok res → res.length ≤ cap := by
  induction fuel with
  | zero => intro acc p res _ h; simp [PB.readListLoop] at h
  | succ f ih =>
    intro acc p res ha h
    unfold PB.readListLoop at h
    split at h
    · simp only [Res.ok.injEq] at h; rw [← h]; exact ha
    · rcases hr : read p with ⟨r, p'⟩
      cases r with
      | err e => rw [M.bind_err hr] at h; cases h
      | panic => rw [M.bind_panic hr] at h; cases h
      | ok a =>
        rw [M.bind_ok hr] at h
        split at h
        · exact ih _ _ _ (by simp; omega) h
        · simp at h

/-- A list of code points. -/
theorem codeList_iff {α : Type} {table : List (α × Nat)} {code : α → Nat} {of : Nat → Option α}
    (h : Realises table code of) (hb : ∀ x n, (x, n) ∈ table → n < 65536) (cap : Nat) (mk : List α → ExtData)
    (d : Bytes) (hcap : 2 * cap < 65536) :
    (∃ x, ((do let n ← PB.readU16
               return mk (← PB.readList cap n (parseCode PB.readU16 of)) : P ExtData) (PB.new d)).1 = .ok x) ↔
      ∃ (ns : List Nat) (rest : Bytes), ns.length ≤ cap ∧ (∀ n ∈ ns, Known table n) ∧
        d = be16 (2 * ns.length) ++ (ns.flatMap be16 ++ rest) := by
  have hflat : ∀ ns : List Nat, (ns.flatMap be16).length = 2 * ns.length := by
    intro ns
    induction ns with
    | nil => rfl
    | cons a l ih => simp only [List.flatMap_cons, List.length_append, ih, be16, List.length_cons, List.length_nil]; omega
  constructor
  · rintro ⟨x, hx⟩
    have hs : Sound (do let n ← PB.readU16
                        return mk (← PB.readList cap n (parseCode PB.readU16 of)) : P ExtData)
        (fun bs _ => ∃ (ns : List Nat), ns.length ≤ cap ∧ (∀ n ∈ ns, Known table n) ∧
          bs = be16 (2 * ns.length) ++ ns.flatMap be16) := by
      refine (Sound.u16.bind fun n => (Sound.bind (m := PB.readList cap n (parseCode PB.readU16 of))
        (R := fun bs l => bs.length = n ∧ (PB.readListLoop cap .insufficientSpace (parseCode PB.readU16 of)
          (bs.length + 1) [] (PB.new bs)).1 = .ok l) ?_ fun l => Sound.pure (mk l))).mono ?_
      · unfold PB.readList
        refine ((Sound.slice n).bind fun dd => Sound.lift _).mono ?_
        rintro bs l ⟨dd, bs1, bs2, rfl, ⟨h1, rfl⟩, rfl, h2⟩
        simp only [List.append_nil]
        exact ⟨h1, h2⟩
      · rintro bs a ⟨n, bs1, bs2, rfl, ⟨hn, rfl⟩, l, bs3, bs4, rfl, ⟨h1, h2⟩, rfl, rfl⟩
        have hc := readListLoop_cap _ _ _ _ _ _ _ (by simp) h2
        obtain ⟨xs, e1, e2, e3⟩ := Sound.listLoop (Sound.code Sound.u16 of) cap _ _ _ _ _ _ (by simp) h2
        simp only [List.drop_zero] at e1
        simp only [List.nil_append] at e3
        have hx : ∃ ns : List Nat, ns.length = xs.length ∧ (∀ n ∈ ns, Known table n) ∧ bs3 = ns.flatMap be16 := by
          rw [e1]
          clear e1 e3 hc h1 h2
          induction xs with
          | nil => exact ⟨[], rfl, by simp, rfl⟩
          | cons y ys ih =>
            obtain ⟨ns, q1, q2, q3⟩ := ih fun z hz => e2 z (List.mem_cons_of_mem _ hz)
            obtain ⟨n, ⟨w1, w2⟩, w3⟩ := e2 y (List.mem_cons_self ..)
            refine ⟨n :: ns, by simp [q1], ?_, ?_⟩
            · intro k hk
              rcases List.mem_cons.1 hk with rfl | hk
              · exact ⟨_, h.inTable w3⟩
              · exact q2 k hk
            · simp only [List.flatMap_cons, q3, w2]
        obtain ⟨ns, q1, q2, rfl⟩ := hx
        refine ⟨ns, ?_, q2, ?_⟩
        · rw [e3] at hc; simp only [List.length_map] at hc; omega
        · rw [hflat] at h1
          rw [← h1, List.append_nil]
    obtain ⟨bs, rest, ⟨ns, h1, h2, rfl⟩, rfl⟩ := sound_new hs hx
    exact ⟨ns, rest, h1, h2, by simp [List.append_assoc]⟩
  · rintro ⟨ns, rest, h1, h2, rfl⟩
    have hxs : ∃ xs : List α, xs.map code = ns := by
      clear h1
      induction ns with
      | nil => exact ⟨[], rfl⟩
      | cons n ns ih =>
        obtain ⟨xs, hxs⟩ := ih fun k hk => h2 k (List.mem_cons_of_mem _ hk)
        obtain ⟨x, hx⟩ := h2 n (List.mem_cons_self ..)
        exact ⟨x :: xs, by simp [hxs, h.encode_decode _ _ (h.accept _ _ hx)]⟩
    obtain ⟨xs, rfl⟩ := hxs
    have hfl : (xs.map code).flatMap be16 = xs.flatMap fun x => be16 (code x) := by
      simp [List.flatMap_map]
    have hr : Reads (PB.readList cap ((xs.flatMap fun x => be16 (code x)).length) (parseCode PB.readU16 of))
        (xs.flatMap fun x => be16 (code x)) (.ok xs) :=
      Reads.readList cap (fun x => be16 (code x)) xs
        (fun x _ => Reads.code16 h (h.encode_table x) (hb _ _ (h.encode_table x))) (by simp [be16]) (by simpa using h1)
    have hlen : (xs.flatMap fun x => be16 (code x)).length = 2 * (xs.map code).length := by
      rw [← hfl, hflat]
    rw [hlen] at hr
    refine ⟨mk xs, ?_⟩
    rw [hfl, ← List.append_assoc]
    exact reads_prefix ((Reads.u16 _ (by simp only [List.length_map] at h1 ⊢; omega)).bind (hr.ret (f := mk)))

theorem keyShare_iff (d : Bytes) : (∃ x, (keyShareSHParse (PB.new d)).1 = .ok x) ↔
    ∃ n key rest, Known namedGroups n ∧ key.length < 65536 ∧ d = be16 n ++ (be16 key.length ++ (key ++ rest)) := by
  constructor
  · rintro ⟨x, hx⟩
    have hs : Sound keyShareSHParse (fun bs _ => ∃ n key, Known namedGroups n ∧ key.length < 65536 ∧
        bs = be16 n ++ (be16 key.length ++ key)) := by
      unfold keyShareSHParse KeyShareEntry.parse NamedGroup.parse
      refine (Sound.bind ((Sound.code Sound.u16 _).bind fun g => Sound.u16.bind fun n => (Sound.slice n).bind fun o =>
        Sound.pure (KeyShareEntry.mk g o.buffer)) fun e => Sound.pure (ExtData.keyShareSH e)).mono ?_
      rintro bs a ⟨e, b1, b2, rfl, ⟨g, b3, b4, rfl, ⟨n, ⟨h1, rfl⟩, h2⟩, n', b5, b6, rfl, ⟨h3, rfl⟩, o, b7, b8, rfl,
        ⟨h4, rfl⟩, rfl, rfl⟩, rfl, rfl⟩
      exact ⟨n, b7, ⟨g, C04_named_group.inTable h2⟩, by omega, by simp [h4]⟩
    obtain ⟨bs, rest, ⟨n, key, h1, h2, rfl⟩, rfl⟩ := sound_new hs hx
    exact ⟨n, key, rest, h1, h2, by simp [List.append_assoc]⟩
  · rintro ⟨n, key, rest, ⟨g, hg⟩, h2, rfl⟩
    have hn : n < 65536 := by
      have := C04_named_group.encode_decode n g (C04_named_group.accept _ _ hg)
      subst this; cases g <;> decide
    refine ⟨.keyShareSH ⟨g, key⟩, ?_⟩
    have h : Reads keyShareSHParse (be16 n ++ (be16 key.length ++ key)) (.ok (.keyShareSH ⟨g, key⟩)) := by
      unfold keyShareSHParse KeyShareEntry.parse
      refine Reads.ret (f := ExtData.keyShareSH) (r := .ok ⟨g, key⟩) ?_
      refine (Reads.code16 C04_named_group hg hn).bind ?_
      refine (Reads.u16 _ h2).bind ?_
      exact Reads.ret (f := fun p : PB => KeyShareEntry.mk g p.buffer) (Reads.slice key)
    have := reads_prefix (rest := rest) h
    simpa [List.append_assoc] using this

theorem u16_iff (mk : Nat → ExtData) (d : Bytes) :
    (∃ x, ((do return mk (← PB.readU16) : P ExtData) (PB.new d)).1 = .ok x) ↔ 2 ≤ d.length := by
  constructor
  · rintro ⟨x, hx⟩
    have hs : Sound (do return mk (← PB.readU16) : P ExtData) (fun bs _ => bs.length = 2) := by
      refine (Sound.u16.bind fun n => Sound.pure (mk n)).mono ?_
      rintro bs a ⟨n, b1, b2, rfl, ⟨-, rfl⟩, rfl, -⟩
      simp [be16]
    obtain ⟨bs, rest, h1, rfl⟩ := sound_new hs hx
    simp [h1]
  · intro h
    match d, h with
    | a :: b :: rest, _ =>
      have h1 := a.toNat_lt
      have h2 := b.toNat_lt
      have e : a :: b :: rest = be16 (a.toNat * 256 + b.toNat) ++ rest := by
        simp only [be16, List.cons_append, List.nil_append, List.cons.injEq, and_true]
        constructor
        · apply UInt8.toNat.inj; simp only [UInt8.toNat_ofNat']; omega
        · apply UInt8.toNat.inj; simp only [UInt8.toNat_ofNat']; omega
      rw [e]
      exact ⟨_, reads_prefix ((Reads.u16 _ (by omega)).ret (f := mk))⟩

theorem maxFragment_iff (d : Bytes) : (∃ x, (maxFragmentLengthParse (PB.new d)).1 = .ok x) ↔
    ∃ (b : UInt8) (rest : Bytes), Known maxFragmentLengths b.toNat ∧ d = b :: rest := by
  constructor
  · rintro ⟨x, hx⟩
    have hs : Sound maxFragmentLengthParse (fun bs _ => ∃ b : UInt8, Known maxFragmentLengths b.toNat ∧ bs = [b]) := by
      unfold maxFragmentLengthParse MaxFragmentLength.parse
      refine ((Sound.code Sound.u8 _).bind fun n => Sound.pure _).mono ?_
      rintro bs a ⟨n, b1, b2, rfl, ⟨k, ⟨h1, rfl⟩, h2⟩, rfl, -⟩
      refine ⟨UInt8.ofNat k, ⟨n, ?_⟩, by simp⟩
      rw [toNat_ofNat, Nat.mod_eq_of_lt h1]
      exact C04_max_fragment_length.inTable h2
    obtain ⟨bs, rest, ⟨b, h1, rfl⟩, rfl⟩ := sound_new hs hx
    exact ⟨b, rest, h1, rfl⟩
  · rintro ⟨b, rest, ⟨m, hm⟩, rfl⟩
    exact ⟨_, reads_prefix (bs := [b]) ((Reads.code8 C04_max_fragment_length hm).ret (f := ExtData.maxFragmentLength))⟩

/-- A protocol name as it stands in the list. -/
def protoBytes (p : Bytes) : Bytes := UInt8.ofNat p.length :: p

theorem alpnLoop_sound (fuel : Nat) : ∀ (b : Bytes) (pos : Nat), pos ≤ b.length →
    (alpnLoop fuel ⟨b, pos⟩).1 = .ok () →
    ∃ ps : List Bytes, (∀ p ∈ ps, 0 < p.length ∧ p.length < 256) ∧ b.drop pos = ps.flatMap protoBytes := by
  induction fuel with
  | zero => intro b pos _ h; simp [alpnLoop] at h
  | succ f ih =>
    intro b pos hp h
    unfold alpnLoop at h
    split at h
    · next he =>
      simp only [PB.isEmpty, beq_iff_eq] at he
      exact ⟨[], by simp, by simp [he]⟩
    · rcases h1 : PB.readU8 ⟨b, pos⟩ with ⟨r, p1⟩
      cases r with
      | err e => rw [M.bind_err h1] at h; cases h
      | panic => rw [M.bind_panic h1] at h; cases h
      | ok n =>
        rw [M.bind_ok h1] at h
        obtain ⟨bs, ⟨hn, rfl⟩, d1, rfl, l1⟩ := Sound.u8 b pos n p1 hp h1
        split at h
        · simp at h
        · next hnz =>
          rcases h2 : PB.slice n ⟨b, pos + [UInt8.ofNat n].length⟩ with ⟨r, p2⟩
          cases r with
          | err e => rw [M.bind_err h2] at h; cases h
          | panic => rw [M.bind_panic h2] at h; cases h
          | ok q =>
            rw [M.bind_ok h2] at h
            obtain ⟨bs, ⟨hl, rfl⟩, d2, rfl, l2⟩ := Sound.slice n b _ q p2 l1 h2
            obtain ⟨ps, q1, q2⟩ := ih b _ l2 h
            refine ⟨bs :: ps, ?_, ?_⟩
            · intro p hp
              rcases List.mem_cons.1 hp with rfl | hp
              · omega
              · exact q1 p hp
            · rw [d1, d2, q2]
              simp [protoBytes, hl]

theorem alpnLoop_complete (ps : List Bytes) (h : ∀ p ∈ ps, 0 < p.length ∧ p.length < 256) : ∀ (A : Bytes) (fuel : Nat),
    ps.length < fuel → (alpnLoop fuel ⟨A ++ ps.flatMap protoBytes, A.length⟩).1 = .ok () := by
  induction ps with
  | nil =>
    intro A fuel hf
    match fuel, hf with
    | f + 1, _ => simp [alpnLoop, PB.isEmpty]
  | cons p ps ih =>
    intro A fuel hf
    match fuel, hf with
    | f + 1, hf =>
      obtain ⟨h1, h2⟩ := h p (List.mem_cons_self ..)
      unfold alpnLoop
      have hne : (PB.isEmpty ⟨A ++ (p :: ps).flatMap protoBytes, A.length⟩) = false := by
        simp [PB.isEmpty, protoBytes]
      rw [hne]
      simp only [Bool.false_eq_true, if_false]
      have e : A ++ (p :: ps).flatMap protoBytes = A ++ ([UInt8.ofNat p.length] ++ (p ++ ps.flatMap protoBytes)) := by
        simp [protoBytes]
      have r1 := Reads.ok_iff.mp (Reads.u8n p.length h2) A (p ++ ps.flatMap protoBytes)
      rw [e, M.bind_ok r1, if_neg (by omega)]
      have r2 := Reads.ok_iff.mp (Reads.slice p) (A ++ [UInt8.ofNat p.length]) (ps.flatMap protoBytes)
      simp only [List.append_assoc, List.length_append] at r2
      rw [M.bind_ok r2]
      have := ih (fun q hq => h q (List.mem_cons_of_mem _ hq)) (A ++ ([UInt8.ofNat p.length] ++ p)) f
        (by simp only [List.length_cons] at hf; omega)
      simpa only [List.append_assoc, List.length_append, Nat.add_assoc] using this

theorem alpn_iff (d : Bytes) : (∃ x, (alpnParse (PB.new d)).1 = .ok x) ↔
    ∃ (ps : List Bytes) (rest : Bytes), (∀ p ∈ ps, 0 < p.length ∧ p.length < 256) ∧
      (ps.flatMap protoBytes).length < 65536 ∧
      d = be16 (ps.flatMap protoBytes).length ++ (ps.flatMap protoBytes ++ rest) := by
  constructor
  · rintro ⟨x, hx⟩
    have hs : Sound alpnParse (fun bs _ => ∃ ps : List Bytes, (∀ p ∈ ps, 0 < p.length ∧ p.length < 256) ∧
        (ps.flatMap protoBytes).length < 65536 ∧ bs = be16 (ps.flatMap protoBytes).length ++ ps.flatMap protoBytes) := by
      unfold alpnParse
      refine (Sound.u16.bind fun n => (Sound.slice n).bind fun l => Sound.lift _).mono ?_
      rintro bs a ⟨n, b1, b2, rfl, ⟨hn, rfl⟩, l, b3, b4, rfl, ⟨hl, rfl⟩, rfl, h⟩
      cases hr : (alpnLoop ((PB.new b3).buffer.length + 1) (PB.new b3)).1 with
      | err e => rw [hr] at h; cases h
      | panic => rw [hr] at h; cases h
      | ok u =>
        obtain ⟨ps, q1, q2⟩ := alpnLoop_sound _ b3 0 (Nat.zero_le _) hr
        simp only [List.drop_zero] at q2
        subst q2
        exact ⟨ps, q1, by omega, by simp [hl]⟩
    obtain ⟨bs, rest, ⟨ps, h1, h2, rfl⟩, rfl⟩ := sound_new hs hx
    exact ⟨ps, rest, h1, h2, by simp only [List.append_assoc]⟩
  · rintro ⟨ps, rest, h1, h2, rfl⟩
    have hlen : ps.length ≤ (ps.flatMap protoBytes).length := by
      clear h1 h2
      induction ps with
      | nil => simp
      | cons p ps ih => simp only [List.flatMap_cons, List.length_append, protoBytes, List.length_cons] at ih ⊢; omega
    have hloop := alpnLoop_complete ps h1 [] ((ps.flatMap protoBytes).length + 1) (by omega)
    have h : Reads alpnParse (be16 (ps.flatMap protoBytes).length ++ (ps.flatMap protoBytes ++ [])) (.ok (.alpn [])) := by
      unfold alpnParse
      refine (Reads.u16 _ h2).bind ((Reads.slice _).bind ((Reads.lift _).castRes ?_))
      simp only [List.nil_append, List.length_nil] at hloop
      simp only [PB.new, hloop, Res.map]
    have := reads_prefix (rest := rest) h
    simp only [List.append_nil, List.append_assoc] at this
    exact ⟨_, this⟩

/-- The parser of each extension accepts exactly the readable contents. -/
theorem parser_iff (m : ExtMsg) (t : ExtensionType) (parser : P ExtData) (hg : groupOf m t = some parser) (d : Bytes) :
    (∃ x, (parser (PB.new d)).1 = .ok x) ↔ ExtReadable m t d := by
  have hu : ∀ d : Bytes, (∃ x, (unimplementedParse (PB.new d)).1 = .ok x) ↔ True := fun d =>
    ⟨fun _ => trivial, fun _ => ⟨_, rfl⟩⟩
  have hng : ∀ x n, (x, n) ∈ namedGroups → n < 65536 := by
    intro x n h
    have := C04_named_group.encode_decode n x (C04_named_group.accept _ _ h)
    subst this; cases x <;> decide
  have hss : ∀ x n, (x, n) ∈ signatureSchemes → n < 65536 := by
    intro x n h
    have := C04_signature_scheme.encode_decode n x (C04_signature_scheme.accept _ _ h)
    subst this; cases x <;> decide
  cases m <;> cases t <;>
    simp only [groupOf, serverHelloGroup, encryptedExtensionsGroup, certificateRequestGroup, certificateGroup,
      newSessionTicketGroup, reduceCtorEq, Option.some.injEq] at hg <;> subst hg <;>
    first
    | exact hu d
    | exact keyShare_iff d
    | exact u16_iff _ d
    | exact maxFragment_iff d
    | exact alpn_iff d
    | exact codeList_iff C04_named_group hng 13 .supportedGroups d (by decide)
    | exact codeList_iff C04_signature_scheme hss 25 .signatureAlgorithms d (by decide)
    | skip
  · simp only [serverNameResponseParse, PB.new, PB.isEmpty, ExtReadable]
    constructor
    · rintro ⟨x, hx⟩
      cases d with
      | nil => rfl
      | cons a l => simp at hx
    · rintro rfl
      exact ⟨.serverNameResponse, rfl⟩

/-! ## Lists of extensions -/

/-- An extension of a type the client knows. -/
def knownExt (x : RawExt) : Bool := extensionTypes.any fun e => e.2 == x.ty

theorem knownExt_iff (x : RawExt) : knownExt x = true ↔ ∃ t, (t, x.ty) ∈ extensionTypes := by
  simp only [knownExt, List.any_eq_true, beq_iff_eq]
  constructor
  · rintro ⟨⟨t, n⟩, h1, rfl⟩; exact ⟨t, h1⟩
  · rintro ⟨t, h⟩; exact ⟨_, h, rfl⟩

theorem groupOf_some {m : ExtMsg} {t : ExtensionType} (h : t ∈ permitted m) : ∃ parser, groupOf m t = some parser :=
  Option.isSome_iff_exists.mp ((C05_permitted m t).mpr h)

theorem groupOf_none {m : ExtMsg} {t : ExtensionType} (h : t ∉ permitted m) : groupOf m t = none := by
  cases hg : groupOf m t with
  | none => rfl
  | some p => exact absurd ((C05_permitted m t).mp (by rw [hg]; rfl)) h

theorem parser_noPanic (m : ExtMsg) (t : ExtensionType) (parser : P ExtData) (hg : groupOf m t = some parser)
    (d : Bytes) : (parser (PB.new d)).1 ≠ .panic := by
  cases m
  · exact serverHelloGroup_good t parser hg _ (PB.new_valid _)
  · exact encryptedExtensionsGroup_good t parser hg _ (PB.new_valid _)
  · exact certificateRequestGroup_good t parser hg _ (PB.new_valid _)
  · exact certificateGroup_good t parser hg _ (PB.new_valid _)
  · exact newSessionTicketGroup_good t parser hg _ (PB.new_valid _)

/-- One extension of known type. -/
theorem extStep_known (m : ExtMsg) (x : RawExt) (t : ExtensionType) (h : (t, x.ty) ∈ extensionTypes) :
    (t ∉ permitted m ∧ extStep (groupOf m) x = .err (.abortHandshake .fatal .illegalParameter)) ∨
    (t ∈ permitted m ∧ ¬ ExtReadable m t x.data ∧ extStep (groupOf m) x = .err .decodeError) ∨
    (t ∈ permitted m ∧ ExtReadable m t x.data ∧ ∃ e, extStep (groupOf m) x = .ok e) := by
  unfold extStep
  rw [C04_extension_type.accept _ _ h]
  by_cases hp : t ∈ permitted m
  · obtain ⟨parser, hg⟩ := groupOf_some hp
    simp only [hg]
    cases hr : (parser (PB.new x.data)).1 with
    | panic => exact absurd hr (parser_noPanic m t parser hg _)
    | ok a => exact .inr (.inr ⟨hp, (parser_iff m t parser hg _).mp ⟨a, hr⟩, _, rfl⟩)
    | err e =>
      refine .inr (.inl ⟨hp, fun hc => ?_, rfl⟩)
      obtain ⟨y, hy⟩ := (parser_iff m t parser hg _).mpr hc
      rw [hr] at hy
      cases hy
  · exact .inl ⟨hp, by simp only [groupOf_none hp]⟩

theorem known_unique {t t' : ExtensionType} {n : Nat} (h : (t, n) ∈ extensionTypes) (h' : (t', n) ∈ extensionTypes) :
    t = t' := by
  have := C04_extension_type.accept _ _ h
  rw [C04_extension_type.accept _ _ h'] at this
  exact (Option.some.inj this).symm

/-- A list is read in full exactly if it is readable, and then as many extensions are kept as are known. -/
theorem extSpec_iff (m : ExtMsg) (cap : Nat) (xs : List RawExt) : ∀ acc : List Ext, acc.length ≤ cap →
    ((∃ l, extSpec (groupOf m) cap acc xs = .ok l) ↔
      (∀ x ∈ xs, ∀ t, (t, x.ty) ∈ extensionTypes → t ∈ permitted m ∧ ExtReadable m t x.data) ∧
        acc.length + (xs.filter knownExt).length ≤ cap) ∧
    ∀ l, extSpec (groupOf m) cap acc xs = .ok l → l.length = acc.length + (xs.filter knownExt).length := by
  induction xs with
  | nil =>
    intro acc ha
    simp only [extSpec, Res.ok.injEq, List.not_mem_nil, false_imp_iff, implies_true, List.filter_nil, List.length_nil,
      Nat.add_zero, true_and]
    exact ⟨⟨fun _ => ha, fun _ => ⟨acc, rfl⟩⟩, fun l h => by rw [h]⟩
  | cons x xs ih =>
    intro acc ha
    by_cases hk : knownExt x = true
    · obtain ⟨t, ht⟩ := (knownExt_iff x).mp hk
      rw [List.filter_cons_of_pos hk]
      simp only [List.length_cons, List.mem_cons, forall_eq_or_imp]
      unfold extSpec
      rcases extStep_known m x t ht with ⟨h1, h2⟩ | ⟨h1, h2, h3⟩ | ⟨h1, h2, e, h3⟩
      · simp only [h2, reduceCtorEq, exists_false, false_iff, false_imp_iff, implies_true, and_true]
        rintro ⟨⟨hc, -⟩, -⟩
        exact h1 (hc t ht).1
      · simp only [h3, reduceCtorEq, exists_false, false_iff, false_imp_iff, implies_true, and_true]
        rintro ⟨⟨hc, -⟩, -⟩
        exact h2 (hc t ht).2
      · simp only [h3]
        by_cases hc : acc.length < cap
        · rw [if_pos hc]
          obtain ⟨i1, i2⟩ := ih (acc ++ [e]) (by simp; omega)
          simp only [List.length_append, List.length_cons, List.length_nil] at i1 i2
          refine ⟨i1.trans ?_, fun l hl => by rw [i2 l hl]; omega⟩
          constructor
          · rintro ⟨q1, q2⟩
            refine ⟨⟨?_, q1⟩, by omega⟩
            intro t' ht'
            rw [known_unique ht' ht]
            exact ⟨h1, h2⟩
          · rintro ⟨⟨-, q1⟩, q2⟩
            exact ⟨q1, by omega⟩
        · rw [if_neg hc]
          simp only [reduceCtorEq, exists_false, false_iff, false_imp_iff, implies_true, and_true]
          rintro ⟨-, q⟩
          omega
    · have hun : UnknownType x.ty := fun t ht => hk ((knownExt_iff x).mpr ⟨t, ht⟩)
      rw [List.filter_cons_of_neg hk]
      obtain ⟨i1, i2⟩ := ih acc ha
      unfold extSpec
      rw [extStep_unknown _ x hun]
      refine ⟨i1.trans ?_, i2⟩
      simp only [List.mem_cons, forall_eq_or_imp]
      constructor
      · rintro ⟨q1, q2⟩
        exact ⟨⟨fun t ht => absurd ht (hun t), q1⟩, q2⟩
      · rintro ⟨⟨-, q1⟩, q2⟩
        exact ⟨q1, q2⟩

theorem extSpec_readable (m : ExtMsg) (cap : Nat) (xs : List RawExt) :
    (∃ l, extSpec (groupOf m) cap [] xs = .ok l) ↔ ExtsReadable m cap xs := by
  have := (extSpec_iff m cap xs [] (Nat.zero_le _)).1
  simp only [List.length_nil, Nat.zero_add] at this
  exact this

/-- A list that is not readable has a first extension because of which it is not. -/
theorem first_offence (m : ExtMsg) (cap : Nat) (xs : List RawExt) (h : ¬ ExtsReadable m cap xs) :
    ∃ pre x post, xs = pre ++ x :: post ∧ ExtsReadable m cap pre ∧ ¬ ExtsReadable m cap (pre ++ [x]) := by
  induction xs using List.reverseRecOn with
  | nil => exact absurd ⟨by simp, by simp⟩ h
  | append_singleton ys y ih =>
    by_cases hy : ExtsReadable m cap ys
    · exact ⟨ys, y, [], rfl, hy, h⟩
    · obtain ⟨pre, x, post, rfl, h1, h2⟩ := ih hy
      exact ⟨pre, x, post ++ [y], by simp, h1, h2⟩

/-- What reading a list that is not readable ends with. -/
theorem extSpec_offence (m : ExtMsg) (cap : Nat) (pre : List RawExt) (x : RawExt) (post : List RawExt)
    (h1 : ExtsReadable m cap pre) (h2 : ¬ ExtsReadable m cap (pre ++ [x])) :
    ∃ t, (t, x.ty) ∈ extensionTypes ∧ extSpec (groupOf m) cap [] (pre ++ x :: post) =
      .err (if t ∈ permitted m then .decodeError else .abortHandshake .fatal .illegalParameter) := by
  obtain ⟨l, hl⟩ := (extSpec_readable m cap pre).mpr h1
  have hcount := (extSpec_iff m cap pre [] (Nat.zero_le _)).2 l hl
  simp only [List.length_nil, Nat.zero_add] at hcount
  have hk : knownExt x = true := by
    by_contra hk
    have hun : UnknownType x.ty := fun t ht => hk ((knownExt_iff x).mpr ⟨t, ht⟩)
    refine h2 ⟨?_, ?_⟩
    · intro y hy t ht
      simp only [List.mem_append, List.mem_singleton] at hy
      rcases hy with hy | rfl
      · exact h1.1 y hy t ht
      · exact absurd ht (hun t)
    · show ((pre ++ [x]).filter knownExt).length ≤ cap
      rw [List.filter_append, List.filter_cons_of_neg hk, List.filter_nil, List.append_nil]
      exact h1.2
  obtain ⟨t, ht⟩ := (knownExt_iff x).mp hk
  refine ⟨t, ht, ?_⟩
  rw [extSpec_prefix _ _ _ _ _ _ hl]
  unfold extSpec
  rcases extStep_known m x t ht with ⟨q1, q2⟩ | ⟨q1, q2, q3⟩ | ⟨q1, q2, e, q3⟩
  · simp only [q2, if_neg q1]
  · simp only [q3, if_pos q1]
  · simp only [q3, if_pos q1]
    rw [if_neg ?_]
    intro hc
    refine h2 ⟨?_, ?_⟩
    · intro y hy t' ht'
      simp only [List.mem_append, List.mem_singleton] at hy
      rcases hy with hy | rfl
      · exact h1.1 y hy t' ht'
      · rw [known_unique ht' ht]; exact ⟨q1, q2⟩
    · show ((pre ++ [x]).filter knownExt).length ≤ cap
      rw [List.filter_append, List.filter_cons_of_pos hk]
      simp only [List.filter_nil, List.length_append, List.length_cons, List.length_nil]
      omega

/-- **C73** A list of extensions in a server message is read exactly if it is readable: every extension of known type is
permitted there and has a readable content, and they are not too many.  Otherwise the first extension with which the
list stops being readable decides: the error is the `illegal_parameter` abort if its type is not permitted, `DecodeError`
if it is. -/
theorem C73_extensions (m : ExtMsg) (cap : Nat) (xs : List RawExt) (hs : ExtsSized xs) (A B : Bytes) :
    ((∃ l, (extParseVector (groupOf m) cap ⟨A ++ (extVec xs ++ B), A.length⟩).1 = .ok l) ↔ ExtsReadable m cap xs) ∧
    (¬ ExtsReadable m cap xs → ∃ pre x post t, xs = pre ++ x :: post ∧ ExtsReadable m cap pre ∧
      ¬ ExtsReadable m cap (pre ++ [x]) ∧ (t, x.ty) ∈ extensionTypes ∧
      (extParseVector (groupOf m) cap ⟨A ++ (extVec xs ++ B), A.length⟩).1 =
        .err (if t ∈ permitted m then .decodeError else .abortHandshake .fatal .illegalParameter)) := by
  rw [(extParseVector_reads _ cap _ hs A B).1]
  refine ⟨extSpec_readable m cap xs, fun h => ?_⟩
  obtain ⟨pre, x, post, rfl, h1, h2⟩ := first_offence m cap xs h
  obtain ⟨t, h3, h4⟩ := extSpec_offence m cap pre x post h1 h2
  exact ⟨pre, x, post, t, rfl, h1, h2, h3, h4⟩

/-! ## Messages -/

theorem map_ok_iff {ε α β : Type} (r : Res ε α) (f : α → β) : (∃ b, r.map f = .ok b) ↔ ∃ a, r = .ok a := by
  cases r <;> simp [Res.map]

theorem certSpec_iff (cap : Nat) (es : List (Bytes × List RawExt)) : ∀ acc : List CertEntry, acc.length ≤ cap →
    ((∃ l, certSpec cap acc es = .ok l) ↔
      acc.length + es.length ≤ cap ∧ ∀ e ∈ es, ExtsReadable .certificate 2 e.2) := by
  induction es with
  | nil => intro acc ha; simpa [certSpec] using ha
  | cons e es ih =>
    intro acc ha
    unfold certSpec
    have hr := extSpec_readable .certificate 2 e.2
    simp only [groupOf] at hr
    simp only [List.length_cons, List.mem_cons, forall_eq_or_imp, ← hr]
    cases hx : extSpec certificateGroup 2 [] e.2 with
    | err x => simp
    | panic => simp
    | ok l =>
      simp only
      by_cases hc : acc.length < cap
      · rw [if_pos hc, ih _ (by simp; omega)]
        simp only [List.length_append, List.length_cons, List.length_nil, Res.ok.injEq, exists_eq', true_and]
        constructor
        · rintro ⟨h1, h2⟩; exact ⟨by omega, h2⟩
        · rintro ⟨h1, h2⟩; exact ⟨by omega, h2⟩
      · rw [if_neg hc]
        simp only [reduceCtorEq, exists_false, false_iff]
        rintro ⟨h1, -⟩
        omega

theorem decoded_readable (r : RawMsg) : (∃ h, decoded r = .ok h) ↔ r.Readable := by
  cases r with
  | serverHello v rd sid cs comp xs =>
    simp only [decoded, RawMsg.Readable, map_ok_iff]
    exact extSpec_readable .serverHello 4 xs
  | encryptedExtensions xs =>
    simp only [decoded, RawMsg.Readable, map_ok_iff]
    exact extSpec_readable .encryptedExtensions 16 xs
  | certificateRequest ctx xs =>
    simp only [decoded, RawMsg.Readable, map_ok_iff]
    exact extSpec_readable .certificateRequest 6 xs
  | certificate ctx es =>
    simp only [decoded, RawMsg.Readable, map_ok_iff]
    have := certSpec_iff 16 es [] (Nat.zero_le _)
    simpa using this
  | certificateVerify s sig =>
    simp only [decoded, RawMsg.Readable, Known]
    cases hs : SignatureScheme.of s with
    | none =>
      simp only [reduceCtorEq, exists_false, false_iff]
      rintro ⟨x, hx⟩
      rw [C04_signature_scheme.accept _ _ hx] at hs
      cases hs
    | some x =>
      simp only [Res.ok.injEq, exists_eq', true_iff]
      exact ⟨x, C04_signature_scheme.inTable hs⟩
  | finished v => simp [decoded, RawMsg.Readable]
  | newSessionTicket a b n t xs =>
    simp only [decoded, RawMsg.Readable, map_ok_iff]
    exact extSpec_readable .newSessionTicket 1 xs

/-- **C73** The byte strings from which the handshake decoder reads a message are exactly those that begin with the RFC
8446 encoding of a readable message, up to the value of the length field (C09). -/
theorem C73_messages (bytes : Bytes) :
    (∃ h, (ServerHs.parse S (PB.new bytes)).1 = .ok h) ↔
      ∃ (r : RawMsg) (n : Nat) (rest : Bytes), r.WellSized S.hashLen ∧ n < 16777216 ∧ r.Readable ∧
        bytes = r.type :: (be24 n ++ r.body) ++ rest := by
  constructor
  · rintro ⟨h, hh⟩
    rcases hp : ServerHs.parse S (PB.new bytes) with ⟨res, p'⟩
    rw [hp] at hh
    simp only at hh
    subst hh
    obtain ⟨bs, -, h3, rfl, h5⟩ := parse_shape S bytes 0 h p' (Nat.zero_le _) hp
    simp only [List.drop_zero] at h3
    have hp' : ServerHs.parse S ⟨[] ++ (bs ++ bytes.drop (0 + bs.length)), ([] : Bytes).length⟩ =
        (.ok h, ⟨[] ++ (bs ++ bytes.drop (0 + bs.length)), ([] : Bytes).length + bs.length⟩) := by
      rw [List.nil_append, ← h3]
      exact hp
    obtain ⟨raw, n, q1, q2, q3, q4⟩ := parse_sound S [] bs _ h hp'
    exact ⟨raw, n, _, q1, q2, (decoded_readable raw).mp ⟨h, q4⟩, by rw [← q3]; exact h3⟩
  · rintro ⟨r, n, rest, h1, h2, h3, rfl⟩
    obtain ⟨h, hh⟩ := (decoded_readable r).mpr h3
    have := (serverHsParse_reads_len S r h1 n h2 [] rest).1
    rw [hh] at this
    exact ⟨h, by simpa [PB.new] using this⟩

theorem certSpec_err (cap : Nat) (es : List (Bytes × List RawExt)) : ∀ acc : List CertEntry,
    (∃ l, certSpec cap acc es = .ok l) ∨ certSpec cap acc es = .err .decodeError ∨
      certSpec cap acc es = .err (.abortHandshake .fatal .illegalParameter) := by
  induction es with
  | nil => intro acc; exact .inl ⟨acc, rfl⟩
  | cons e es ih =>
    intro acc
    unfold certSpec
    by_cases hr : ExtsReadable .certificate 2 e.2
    · obtain ⟨l, hl⟩ := (extSpec_readable .certificate 2 e.2).mpr hr
      simp only [groupOf] at hl
      simp only [hl]
      split
      · exact ih _
      · exact .inr (.inl rfl)
    · obtain ⟨pre, x, post, he, h1, h2⟩ := first_offence _ _ _ hr
      obtain ⟨t, h3, h4⟩ := extSpec_offence .certificate 2 pre x post h1 h2
      simp only [groupOf] at h4
      rw [he, h4]
      by_cases ht : t ∈ permitted .certificate
      · rw [if_pos ht]; exact .inr (.inl rfl)
      · rw [if_neg ht]; exact .inr (.inr rfl)

/-- **C73** A well-formed message that is not readable is refused, with `DecodeError` or the `illegal_parameter` abort. -/
theorem C73_refused (r : RawMsg) (hw : r.WellSized S.hashLen) (n : Nat) (hn : n < 16777216) (hr : ¬ r.Readable)
    (A B : Bytes) :
    (ServerHs.parse S ⟨A ++ ((r.type :: (be24 n ++ r.body)) ++ B), A.length⟩).1 = .err .decodeError ∨
    (ServerHs.parse S ⟨A ++ ((r.type :: (be24 n ++ r.body)) ++ B), A.length⟩).1 =
      .err (.abortHandshake .fatal .illegalParameter) := by
  rw [(serverHsParse_reads_len S r hw n hn A B).1]
  have key : ∀ (m : ExtMsg) (cap : Nat) (xs : List RawExt), ¬ ExtsReadable m cap xs →
      extSpec (groupOf m) cap [] xs = .err .decodeError ∨
      extSpec (groupOf m) cap [] xs = .err (.abortHandshake .fatal .illegalParameter) := by
    intro m cap xs h
    obtain ⟨pre, x, post, rfl, h1, h2⟩ := first_offence _ _ _ h
    obtain ⟨t, h3, h4⟩ := extSpec_offence m cap pre x post h1 h2
    rw [h4]
    split
    · exact .inl rfl
    · exact .inr rfl
  cases r with
  | serverHello v rd sid cs comp xs =>
    rcases key .serverHello 4 xs hr with h | h <;> simp only [groupOf] at h <;> simp [decoded, h, Res.map]
  | encryptedExtensions xs =>
    rcases key .encryptedExtensions 16 xs hr with h | h <;> simp only [groupOf] at h <;> simp [decoded, h, Res.map]
  | certificateRequest ctx xs =>
    rcases key .certificateRequest 6 xs hr with h | h <;> simp only [groupOf] at h <;> simp [decoded, h, Res.map]
  | certificate ctx es =>
    rcases certSpec_err 16 es [] with ⟨l, h⟩ | h | h
    · exact absurd ((decoded_readable (.certificate ctx es)).mp ⟨_, by simp only [decoded, h, Res.map]; rfl⟩) hr
    · simp [decoded, h, Res.map]
    · simp [decoded, h, Res.map]
  | certificateVerify s sig => exact absurd hw.1 hr
  | finished v => exact absurd trivial hr
  | newSessionTicket a b n t xs =>
    rcases key .newSessionTicket 1 xs hr with h | h <;> simp only [groupOf] at h <;> simp [decoded, h, Res.map]

/-! ## C74: unknown values in the lists of known extensions -/

theorem be16_injective {a b : Nat} (ha : a < 65536) (hb : b < 65536) (h : be16 a = be16 b) : a = b := by
  simp only [be16, List.cons.injEq, and_true] at h
  have h1 := congrArg UInt8.toNat h.1
  have h2 := congrArg UInt8.toNat h.2
  simp only [UInt8.toNat_ofNat'] at h1 h2
  omega

theorem flatMap_be16_length (ns : List Nat) : (ns.flatMap be16).length = 2 * ns.length := by
  induction ns with
  | nil => rfl
  | cons a l ih => simp only [List.flatMap_cons, List.length_append, ih, be16, List.length_cons, List.length_nil]; omega

theorem flatMap_be16_inj : ∀ (ns ms : List Nat) (rest : Bytes), (∀ n ∈ ns, n < 65536) → (∀ n ∈ ms, n < 65536) →
    ns.length = ms.length → ns.flatMap be16 = ms.flatMap be16 ++ rest → ns = ms
  | [], [], _, _, _, _, _ => rfl
  | n :: ns, m :: ms, rest, hn, hm, hl, h => by
    simp only [List.flatMap_cons, List.append_assoc] at h
    obtain ⟨h1, h2⟩ := List.append_inj h (by simp [be16])
    rw [be16_injective (hn n (by simp)) (hm m (by simp)) h1,
      flatMap_be16_inj ns ms rest (fun k hk => hn k (by simp [hk])) (fun k hk => hm k (by simp [hk]))
        (by simpa using hl) h2]

/-- A list of 16-bit values under its 16-bit length. -/
def valueList (ns : List Nat) : Bytes := be16 (2 * ns.length) ++ ns.flatMap be16

theorem valueList_iff {α : Type} (table : List (α × Nat)) (hb : ∀ x n, (x, n) ∈ table → n < 65536) (cap : Nat)
    (ns : List Nat) (hl : ns.length < 32768) (hn : ∀ n ∈ ns, n < 65536) :
    (∃ (ks : List Nat) (rest : Bytes), ks.length ≤ cap ∧ (∀ n ∈ ks, Known table n) ∧
      valueList ns = be16 (2 * ks.length) ++ (ks.flatMap be16 ++ rest)) ↔
    ns.length ≤ cap ∧ ∀ n ∈ ns, Known table n := by
  constructor
  · rintro ⟨ks, rest, h1, h2, h3⟩
    obtain ⟨h4, h5⟩ := List.append_inj h3 (by simp [be16])
    have hk : 2 * ks.length < 65536 := by
      have := congrArg List.length h5
      simp only [flatMap_be16_length, List.length_append] at this
      omega
    have h6 := be16_injective (by omega) hk h4
    have := flatMap_be16_inj ns ks rest hn (fun n hn => by obtain ⟨x, hx⟩ := h2 n hn; exact hb _ _ hx) (by omega) h5
    subst this
    exact ⟨h1, h2⟩
  · rintro ⟨h1, h2⟩
    exact ⟨ns, [], h1, h2, by simp [valueList]⟩

/-- **C74 does not hold**: a CertificateRequest whose signature_algorithms list ecdsa_secp256r1_sha256 and a reserved
value (RFC 8701, which a client has to ignore) is refused with `DecodeError`. -/
theorem C74_refuted : ∃ (ctx : Bytes) (ns : List Nat),
    (RawMsg.certificateRequest ctx [⟨13, valueList ns⟩]).WellSized S.hashLen ∧ (∃ n ∈ ns, Known signatureSchemes n) ∧
    (ServerHs.parse S (PB.new (RawMsg.certificateRequest ctx [⟨13, valueList ns⟩]).bytes)).1 = .err .decodeError :=
  ⟨[], [0x0403, 0x0a0a], (by decide : 0 < 256 ∧ ExtsSized [⟨13, valueList [0x0403, 0x0a0a]⟩]),
    ⟨0x0403, by decide, .ecdsaSecp256r1Sha256, by decide⟩, rfl⟩

/-- The part of C74 that holds: the signature_algorithms of a CertificateRequest and the supported_groups of
EncryptedExtensions are accepted exactly if they list known values only, at most 25 and 13 of them.  Missing: lists with
other values (`C74_refuted`). -/
theorem C74_partial (ns : List Nat) (hl : ns.length < 32765) (hn : ∀ n ∈ ns, n < 65536) :
    (∀ ctx : Bytes, ctx.length < 256 → ∀ A B : Bytes,
      ((∃ h, (ServerHs.parse S ⟨A ++ ((RawMsg.certificateRequest ctx [⟨13, valueList ns⟩]).bytes ++ B), A.length⟩).1 =
        .ok h) ↔ ns.length ≤ 25 ∧ ∀ n ∈ ns, Known signatureSchemes n)) ∧
    (∀ A B : Bytes,
      ((∃ h, (ServerHs.parse S ⟨A ++ ((RawMsg.encryptedExtensions [⟨10, valueList ns⟩]).bytes ++ B), A.length⟩).1 =
        .ok h) ↔ ns.length ≤ 13 ∧ ∀ n ∈ ns, Known namedGroups n)) := by
  have hng : ∀ x n, (x, n) ∈ namedGroups → n < 65536 := by
    intro x n h
    have := C04_named_group.encode_decode n x (C04_named_group.accept _ _ h)
    subst this; cases x <;> decide
  have hss : ∀ x n, (x, n) ∈ signatureSchemes → n < 65536 := by
    intro x n h
    have := C04_signature_scheme.encode_decode n x (C04_signature_scheme.accept _ _ h)
    subst this; cases x <;> decide
  have hlen : (valueList ns).length = 2 + 2 * ns.length := by
    simp only [valueList, List.length_append, flatMap_be16_length, be16, List.length_cons, List.length_nil]
  have hsz : ∀ t, t < 65536 → ExtsSized [⟨t, valueList ns⟩] := by
    intro t ht
    refine ⟨?_, ?_⟩
    · intro e he
      simp only [List.mem_singleton] at he
      subst he
      exact ⟨ht, by simp only [hlen]; omega⟩
    · simp only [List.flatMap_cons, List.flatMap_nil, List.append_nil, RawExt.bytes, List.length_append, hlen, be16,
        List.length_cons, List.length_nil]
      omega
  have hone : ∀ (m : ExtMsg) (cap : Nat) (t : ExtensionType) (n : Nat), (t, n) ∈ extensionTypes → t ∈ permitted m →
      0 < cap → (ExtsReadable m cap [⟨n, valueList ns⟩] ↔ ExtReadable m t (valueList ns)) := by
    intro m cap t n ht hp hc
    constructor
    · intro h
      exact (h.1 _ (List.mem_singleton.mpr rfl) t ht).2
    · intro h
      refine ⟨?_, Nat.le_trans (List.length_filter_le _ _) hc⟩
      intro x hx t' ht'
      simp only [List.mem_singleton] at hx
      subst hx
      rw [known_unique ht' ht]
      exact ⟨hp, h⟩
  have hbody : ∀ t, (extVec [⟨t, valueList ns⟩]).length = 8 + 2 * ns.length := by
    intro t
    simp only [extVec, List.flatMap_cons, List.flatMap_nil, List.append_nil, RawExt.bytes, List.length_append, hlen, be16,
      List.length_cons, List.length_nil]
    omega
  constructor
  · intro ctx hctx A B
    have hw : (RawMsg.certificateRequest ctx [⟨13, valueList ns⟩]).WellSized S.hashLen := ⟨hctx, hsz 13 (by decide)⟩
    have hb : (RawMsg.certificateRequest ctx [⟨13, valueList ns⟩]).body.length < 16777216 := by
      simp only [RawMsg.body, List.length_cons, List.length_append, hbody]
      omega
    rw [(serverHsParse_reads S _ hw hb A B).1, decoded_readable]
    exact (hone .certificateRequest 6 .signatureAlgorithms 13 (by decide) (by decide) (by decide)).trans
      (valueList_iff signatureSchemes hss 25 ns (by omega) hn)
  · intro A B
    have hw : (RawMsg.encryptedExtensions [⟨10, valueList ns⟩]).WellSized S.hashLen := hsz 10 (by decide)
    have hb : (RawMsg.encryptedExtensions [⟨10, valueList ns⟩]).body.length < 16777216 := by
      simp only [RawMsg.body, hbody]
      omega
    rw [(serverHsParse_reads S _ hw hb A B).1, decoded_readable]
    exact (hone .encryptedExtensions 16 .supportedGroups 10 (by decide) (by decide) (by decide)).trans
      (valueList_iff namedGroups hng 13 ns (by omega) hn)

example : [0x0403, 0x0804].length ≤ 25 ∧ ∀ n ∈ [0x0403, 0x0804], Known signatureSchemes n :=
  ⟨by decide, by
    intro n hn
    simp only [List.mem_cons, List.not_mem_nil, or_false] at hn
    rcases hn with rfl | rfl
    · exact ⟨.ecdsaSecp256r1Sha256, by decide⟩
    · exact ⟨.rsaPssRsaeSha256, by decide⟩⟩

/-! ## Cases -/

/-- A readable ServerHello, with an extension of unknown type and bytes after the key share. -/
def exReadable : RawMsg := .serverHello 771 (List.replicate 32 1) [] 4865 0
  [⟨51, [0, 23, 0, 2, 4, 9, 77]⟩, ⟨0x3a3a, [1]⟩, ⟨43, [3, 4]⟩]

example : exReadable.WellSized 32 ∧ exReadable.Readable := by
  refine ⟨by unfold exReadable RawMsg.WellSized; exact ⟨by decide, by decide, by decide, ⟨.tlsAes128GcmSha256, by decide⟩,
    by decide⟩, ?_, by decide⟩
  intro x hx t ht
  simp only [List.mem_cons, List.not_mem_nil, or_false] at hx
  rcases hx with rfl | rfl | rfl
  · have : t = .keyShare := known_unique ht (by decide)
    subst this
    exact ⟨by decide, 23, [4, 9], [77], ⟨.secp256r1, by decide⟩, by decide, rfl⟩
  · exact absurd ht (by cases t <;> decide)
  · have : t = .supportedVersions := known_unique ht (by decide)
    subst this
    exact ⟨by decide, by simp [ExtReadable]⟩

/-- A server may list groups the client has never heard of (here 0x6399) in EncryptedExtensions; the message is then not
readable. -/
example : ¬ (RawMsg.encryptedExtensions [⟨10, [0, 2, 0x63, 0x99]⟩]).Readable := by
  rintro ⟨h, -⟩
  obtain ⟨-, ns, rest, -, h2, h3⟩ := h ⟨10, [0, 2, 0x63, 0x99]⟩ (by simp) .supportedGroups (by decide)
  match ns, h2, h3 with
  | [], _, h3 => simp [be16] at h3
  | [n], h2, h3 =>
    obtain ⟨g, hg⟩ := h2 n (by simp)
    have hn := C04_named_group.encode_decode n g (C04_named_group.accept _ _ hg)
    subst hn
    revert h3
    cases g <;> simp [be16, NamedGroup.code]
  | a :: b :: l, _, h3 =>
    have := congrArg List.length h3
    have hl : 65536 > 0 := by decide
    simp only [be16, List.length_cons, List.length_append, List.length_nil, List.flatMap_cons] at this
    omega

end ETls
