import Verif.Proofs.HandshakeComplete
import Verif.Spec.Server

/-! # The client accepts the flight of a conforming server -/

namespace ETls

variable (S : Suite) {V : Type}
open Spec

/-! ## The key share -/

theorem be16_inj {a b : Nat} (ha : a < 65536) (hb : b < 65536) (h : be16 a = be16 b) : a = b := by
  simp only [be16, List.cons.injEq, and_true] at h
  obtain ⟨h1, h2⟩ := h
  have h1 := congrArg UInt8.toNat h1
  have h2 := congrArg UInt8.toNat h2
  simp only [UInt8.toNat_ofNat'] at h1 h2
  omega

theorem keyShare_fwd (cap : Nat) (data : Bytes) (post : List RawExt) : ∀ (pre : List RawExt) (acc exts : List Ext),
    extSpec serverHelloGroup cap acc (pre ++ ⟨51, data⟩ :: post) = .ok exts → serverHelloKeyShare acc = none →
    (∀ e ∈ pre, e.ty ≠ 51) →
    ∃ s, serverHelloKeyShare exts = some s ∧ (keyShareSHParse (PB.new data)).1 = .ok (.keyShareSH s) := by
  have append_none : ∀ (a : List Ext) (t : ExtensionType) (d : ExtData) (b : List Ext), serverHelloKeyShare a = none →
      serverHelloKeyShare (a ++ ⟨t, d⟩ :: b) = serverHelloKeyShare (⟨t, d⟩ :: b) := by
    intro a t d b ha
    induction a with
    | nil => rfl
    | cons e a ih =>
      obtain ⟨te, de⟩ := e
      cases de <;> simp_all [serverHelloKeyShare]
  have skip : ∀ (t : ExtensionType) (d : ExtData) (b : List Ext), (∀ s, d ≠ .keyShareSH s) →
      serverHelloKeyShare (⟨t, d⟩ :: b) = serverHelloKeyShare b := by
    intro t d b hd
    cases d <;> first | rfl | exact absurd rfl (hd _)
  have mono : ∀ (xs : List RawExt) (acc exts : List Ext), extSpec serverHelloGroup cap acc xs = .ok exts →
      ∃ b, exts = acc ++ b := by
    intro xs
    induction xs with
    | nil => intro acc exts h; simp only [extSpec, Res.ok.injEq] at h; exact ⟨[], by simp [h]⟩
    | cons x xs ih =>
      intro acc exts h
      unfold extSpec at h
      split at h
      · split at h
        · obtain ⟨b, rfl⟩ := ih _ _ h
          exact ⟨_, List.append_assoc _ _ _⟩
        · simp at h
      · exact ih _ _ h
      · simp at h
      · simp at h
  intro pre
  induction pre with
  | nil =>
    intro acc exts h h1 _
    rw [List.nil_append] at h
    unfold extSpec at h
    split at h
    · next e he =>
      split at h
      · obtain ⟨t, d⟩ := e
        rcases serverHello_ext he with ⟨_, s, rfl, hp⟩ | ⟨hne, _⟩
        · obtain ⟨b, rfl⟩ := mono _ _ _ h
          refine ⟨s, ?_, hp⟩
          rw [List.append_assoc, List.singleton_append, append_none acc _ _ _ h1]
          rfl
        · exact absurd rfl hne
      · simp at h
    · next hu =>
      unfold extStep at hu
      have : ExtensionType.of 51 = some .keyShare := rfl
      simp only [this, serverHelloGroup] at hu
      split at hu <;> simp at hu
    · simp at h
    · simp at h
  | cons x pre ih =>
    intro acc exts h h1 hpre
    rw [List.cons_append] at h
    unfold extSpec at h
    have hpre' : ∀ e ∈ pre, e.ty ≠ 51 := fun e he => hpre e (List.mem_cons_of_mem _ he)
    split at h
    · next e he =>
      split at h
      · obtain ⟨t, d⟩ := e
        rcases serverHello_ext he with ⟨h51, _⟩ | ⟨_, hd⟩
        · exact absurd h51 (hpre x List.mem_cons_self)
        · have h3 : serverHelloKeyShare (acc ++ [⟨t, d⟩]) = none := by
            rw [append_none acc _ _ _ h1, skip _ _ _ hd]; rfl
          exact ih _ _ h h3 hpre'
      · simp at h
    · exact ih _ _ h h1 hpre'
    · simp at h
    · simp at h

/-- The client takes the key share from the ServerHello. -/
theorem share_fwd {r : RawMsg} {share secret dhe : Bytes} {h : ServerHs} (hk : KeyShareOf r share) (hd : decoded r = .ok h)
    (hdh : S.dh secret share = some dhe) :
    ∃ exts, h = .serverHello exts ∧ serverHelloSharedSecret S exts secret = some dhe := by
  obtain ⟨v, rnd, sid, cs, comp, pre, group, g, trailing, post, rfl, _, hlen, hpre⟩ := hk
  simp only [decoded] at hd
  generalize hx : extSpec serverHelloGroup 4 [] _ = res at hd
  cases res with
  | err e => simp [Res.map] at hd
  | panic => simp [Res.map] at hd
  | ok exts =>
    simp only [Res.map, Res.ok.injEq] at hd
    obtain ⟨s, s1, s2⟩ := keyShare_fwd 4 _ post pre [] exts hx rfl hpre
    obtain ⟨_, g', tr', e1, _, e2⟩ := keyShareSH_inv s2
    have e3 := (List.append_inj e1 (by simp [be16])).2
    obtain ⟨e4, e5⟩ := List.append_inj e3 (by simp [be16])
    have e6 := be16_inj hlen e2 e4
    have e7 := (List.append_inj e5 e6).1
    refine ⟨exts, hd.symm, ?_⟩
    unfold serverHelloSharedSecret
    rw [s1, Option.bind_some, ← e7]
    exact hdh

/-! ## The messages -/

theorem tookAll_fwd {p : Provider V} {secret : Bytes} {ms : List (Bytes × ServerHs)} {rs : List (Bytes × RawMsg)}
    (hm : List.Forall₂ (Matches S) ms rs) : ∀ (tr : Bytes) (h : HsData V) (st : State) (v' : V),
    (∀ m ∈ rs, expectedKind m.2) → noFinished rs →
    (∀ ops, p.verifier = some ops → verifierRun ops tr rs h.vst = (.ok (), v')) →
    (p.verifier = none → v' = h.vst) →
    TookAll S p secret tr (h, st) ms (⟨h.trafficHash, h.secret, (lastRequest rs).or h.certReq, v'⟩, st) := by
  induction hm with
  | nil =>
    intro tr h st v' _ _ hv hn
    have : v' = h.vst := by
      cases ho : p.verifier with
      | none => exact hn ho
      | some ops => simpa [verifierRun] using (congrArg Prod.snd (hv ops ho)).symm
    subst this
    exact .nil _ _
  | @cons a b ms rs hm hms ih =>
    intro tr h st v' hk hf hv hn
    obtain ⟨m, hh⟩ := a
    obtain ⟨m', r⟩ := b
    obtain ⟨e1, e2, e3, e4⟩ := hm
    simp only at e1 e2 e3 e4
    subst e1
    have hkr := hk (m, r) List.mem_cons_self
    have hfr := hf (m, r) List.mem_cons_self
    have hk' : ∀ m ∈ rs, expectedKind m.2 := fun x hx => hk x (List.mem_cons_of_mem _ hx)
    have hf' : noFinished rs := fun x hx => hf x (List.mem_cons_of_mem _ hx)
    have hkind := decoded_kind e4
    simp only at hkr hfr
    cases r with
    | serverHello v rnd sid cs comp xs => exact absurd hkr (by simp [expectedKind])
    | newSessionTicket lt aa n tk xs => exact absurd hkr (by simp [expectedKind])
    | finished v => exact absurd rfl (hfr v)
    | encryptedExtensions xs =>
      simp only at hkind
      subst hkind
      exact .cons _ _ _ _ _ _ _ (.encryptedExtensions _)
        (ih (tr ++ m) h st v' hk' hf' (fun ops ho => by simpa [verifierRun] using hv ops ho) hn)
    | certificateRequest ctx xs =>
      simp only at hkind
      subst hkind
      have := ih (tr ++ m) { h with certReq := some ctx } st v' hk' hf'
        (fun ops ho => by simpa [verifierRun] using hv ops ho) hn
      refine .cons _ _ _ _ _ _ _ (.certificateRequest ctx h st hkr) ?_
      have e : (lastRequest ((m, RawMsg.certificateRequest ctx xs) :: rs)).or h.certReq =
          (lastRequest rs).or (some ctx) := by
        simp only [lastRequest]
        cases lastRequest rs <;> rfl
      rw [e]
      exact this
    | certificate ctx es =>
      simp only at hkind
      subst hkind
      rcases ho : p.verifier with _ | ops
      · exact .cons _ _ _ _ _ _ _ (.certificateUnchecked _ _ ho)
          (ih (tr ++ m) h st v' hk' hf' (fun ops' ho' => by rw [ho] at ho'; cases ho') hn)
      · have h1 := hv ops ho
        simp only [verifierRun] at h1
        obtain ⟨_, v1, h2, h3⟩ := M.bind_inv h1
        exact .cons _ _ _ _ _ _ _ (.certificate _ ops h st v1 ho h2)
          (ih (tr ++ m) { h with vst := v1 } st v' hk' hf' (fun ops' ho' => by rw [ho] at ho'; cases ho'; exact h3)
            (fun hno => by rw [ho] at hno; cases hno))
    | certificateVerify s sig =>
      simp only at hkind
      obtain ⟨x, hx, rfl⟩ := hkind
      rcases ho : p.verifier with _ | ops
      · exact .cons _ _ _ _ _ _ _ (.certificateVerifyUnchecked _ _ ho)
          (ih (tr ++ m) h st v' hk' hf' (fun ops' ho' => by rw [ho] at ho'; cases ho') hn)
      · have h1 := hv ops ho
        simp only [verifierRun, C04_signature_scheme.accept _ _ hx] at h1
        obtain ⟨_, v1, h2, h3⟩ := M.bind_inv h1
        exact .cons _ _ _ _ _ _ _ (.certificateVerify _ ops h st v1 ho h2)
          (ih (tr ++ m) { h with vst := v1 } st v' hk' hf' (fun ops' ho' => by rw [ho] at ho'; cases ho'; exact h3)
            (fun hno => by rw [ho] at hno; cases hno))

/-! ## The records -/

/-- The server's records with the decoded messages. -/
def flightOf (dec : RawMsg → ServerHs) (key iv : Bytes) : Nat → List FlightRecord → List (Bytes × List (Bytes × ServerHs))
  | _, [] => []
  | seq, .changeCipherSpec :: rs => (plaintextRecord 20 [3, 3] [1], []) :: flightOf dec key iv seq rs
  | seq, .messages ms padding :: rs =>
    (protect S key iv seq (flightFragment ms padding), ms.map fun m => (m.bytes, dec m)) ::
      flightOf dec key iv (seq + 1) rs

theorem flightOf_bytes (dec : RawMsg → ServerHs) (key iv : Bytes) : ∀ (rs : List FlightRecord) (seq : Nat),
    flightBytes (flightOf S dec key iv seq rs) = (flightRecords S key iv seq rs).flatten := by
  intro rs
  induction rs with
  | nil => intro seq; rfl
  | cons r rs ih =>
    intro seq
    cases r with
    | changeCipherSpec =>
      have := ih seq
      simp only [flightBytes, flightOf, flightRecords, List.flatMap_cons, List.flatten_cons] at this ⊢
      rw [this]
    | messages ms pad =>
      have := ih (seq + 1)
      simp only [flightBytes, flightOf, flightRecords, List.flatMap_cons, List.flatten_cons] at this ⊢
      rw [this]

theorem flightOf_msgs (dec : RawMsg → ServerHs) (key iv : Bytes) : ∀ (rs : List FlightRecord) (seq : Nat),
    flightMsgs (flightOf S dec key iv seq rs) = (rs.flatMap FlightRecord.msgs).map fun m => (m.bytes, dec m) := by
  intro rs
  induction rs with
  | nil => intro seq; rfl
  | cons r rs ih =>
    intro seq
    cases r with
    | changeCipherSpec =>
      have := ih seq
      simp only [flightMsgs, flightOf, List.flatMap_cons, FlightRecord.msgs, List.nil_append] at this ⊢
      exact this
    | messages ms pad =>
      have := ih (seq + 1)
      simp only [flightMsgs, flightOf, List.flatMap_cons, FlightRecord.msgs, List.map_append] at this ⊢
      rw [this]

theorem flightOf_length (dec : RawMsg → ServerHs) (key iv : Bytes) : ∀ (rs : List FlightRecord) (seq : Nat),
    (flightOf S dec key iv seq rs).length = rs.length := by
  intro rs
  induction rs with
  | nil => intro seq; rfl
  | cons r rs ih => intro seq; cases r <;> simp [flightOf, ih]

theorem flightOf_append (dec : RawMsg → ServerHs) (key iv : Bytes) (b : List FlightRecord) : ∀ (a : List FlightRecord)
    (seq : Nat), ∃ seq', flightOf S dec key iv seq (a ++ b) = flightOf S dec key iv seq a ++ flightOf S dec key iv seq' b := by
  intro a
  induction a with
  | nil => intro seq; exact ⟨seq, rfl⟩
  | cons r rs ih =>
    intro seq
    cases r with
    | changeCipherSpec => obtain ⟨q, hq⟩ := ih seq; exact ⟨q, by simp [flightOf, hq]⟩
    | messages ms pad => obtain ⟨q, hq⟩ := ih (seq + 1); exact ⟨q, by simp [flightOf, hq]⟩

theorem protect_length (hS : S.Lawful) (key iv : Bytes) (seq : Nat) (f : Fragment) :
    (protect S key iv seq f).length = f.inner.length + 16 + 5 := by
  unfold protect
  simp only [List.length_append, hS.sealCt_length, hS.sealTag_length, ciphertextHeader, u16, List.length_cons,
    List.length_nil, tagLen]
  omega

theorem flightOf_sizes (hS : S.Lawful) (dec : RawMsg → ServerHs) (key iv : Bytes) (n : Nat) :
    ∀ (rs : List FlightRecord) (seq : Nat), (∀ r ∈ rs, r.size ≤ n) →
    ∀ g ∈ flightOf S dec key iv seq rs, g.1.length ≤ n + 5 := by
  intro rs
  induction rs with
  | nil => intro seq _ g hg; simp [flightOf] at hg
  | cons r rs ih =>
    intro seq hn g hg
    have hr := hn r List.mem_cons_self
    have ih := fun seq => ih seq fun x hx => hn x (List.mem_cons_of_mem _ hx)
    cases r with
    | changeCipherSpec =>
      simp only [FlightRecord.size] at hr
      simp only [flightOf, List.mem_cons] at hg
      rcases hg with rfl | hg
      · simp [plaintextRecord, u16]; omega
      · exact ih _ g hg
    | messages ms pad =>
      simp only [FlightRecord.size] at hr
      simp only [flightOf, List.mem_cons] at hg
      rcases hg with rfl | hg
      · simp only [protect_length S hS]; omega
      · exact ih _ g hg

theorem flightOf_received (hS : S.Lawful) (dec : RawMsg → ServerHs) : ∀ (rs : List FlightRecord) (k : KsState),
    k.iv.length = S.ivLen → (∀ r ∈ rs, r.size < 65536) →
    (∀ m ∈ rs.flatMap FlightRecord.msgs, m.WellSized S.hashLen ∧ m.body.length < 16777216 ∧ decoded m = .ok (dec m)) →
    ∃ k', Received S k (flightOf S dec k.key k.iv k.counter rs) k' := by
  intro rs
  induction rs with
  | nil => intro k _ _ _; exact ⟨k, .nil k⟩
  | cons r rs ih =>
    intro k hk hsz hms
    have ih := fun k hk => ih k hk (fun x hx => hsz x (List.mem_cons_of_mem _ hx)) fun m hm => hms m (by
      simp only [List.flatMap_cons, List.mem_append]; exact .inr hm)
    cases r with
    | changeCipherSpec =>
      obtain ⟨k', hk'⟩ := ih k hk
      refine ⟨k', .cons k k' _ _ 0 _ ?_ hk'⟩
      exact .changeCipherSpec [20, 3, 3, 0, 1] [1] ⟨.changeCipherSpec, 1, [20, 3, 3, 0, 1]⟩ rfl rfl rfl
    | messages ms pad =>
      obtain ⟨k', hk'⟩ := ih { k with counter := k.counter + 1 } hk
      have hs := hsz _ List.mem_cons_self
      simp only [FlightRecord.size] at hs
      obtain ⟨hdr, ct, p1, p2, p3, p4, p5⟩ := protect_parts S hS k.key k.iv k.counter (flightFragment ms pad) hs
      refine ⟨k', .cons k k' _ _ 1 _ ?_ hk'⟩
      rw [p1]
      refine .protected_ hdr ct _ p4 rfl p3.symm pad _ ?_ ?_
      · intro m hm
        obtain ⟨r, hr, rfl⟩ := List.mem_map.1 hm
        obtain ⟨h1, h2, h3⟩ := hms r (by simp only [List.flatMap_cons, List.mem_append, FlightRecord.msgs]; exact .inl hr)
        exact ParsedAs.of_decoded S h1 ⟨r.body.length, h2, rfl⟩ h3
      · rw [nonce_eq S hS.ivLen_eq _ hk, p5]
        simp only [flightFragment, msgBytes, List.flatMap_map]

end ETls
