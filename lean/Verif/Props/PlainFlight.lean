import Verif.Props.Accept

/-! # C114: after the ServerHello only protected handshake messages are accepted

RFC 8446 section 2 and 5.2: all messages after the ServerHello are protected; an unprotected one is an
`unexpected_message`.  The code hands unprotected records to the same callback (`connection.rs:90-92`). -/

namespace ETls

variable {V : Type} (S : Suite)

open Spec

/-- The same server, with each message in an unprotected record of its own. -/
def Spec.ServerInput.inClear (x : ServerInput) : ServerInput :=
  { x with flight := x.msgs.map fun m => (plaintextRecord 22 [3, 3] m.1, [m]) }

theorem inClear_msgs (x : ServerInput) : x.inClear.msgs = x.msgs := by
  unfold ServerInput.msgs ServerInput.inClear
  simp only [List.flatMap_map]
  exact List.flatMap_singleton' _

theorem inClear_bytes (x : ServerInput) : x.inClear.bytes = plaintextRecord 22 [x.version.1, x.version.2] (x.sh ++ x.junk) ++
    x.msgs.flatMap fun m => plaintextRecord 22 [3, 3] m.1 := by
  simp only [ServerInput.bytes, ServerInput.inClear, List.flatMap_map]

theorem mem_length {m : Bytes} {ms : List Bytes} (h : m ∈ ms) : m.length ≤ ms.flatten.length := by
  obtain ⟨a, b, rfl⟩ := List.append_of_mem h
  simp only [List.flatten_append, List.flatten_cons, List.length_append]
  omega

/-- A message is shorter than the payload of the record that carries it. -/
theorem Carries.length (hol : S.OpenLength) {key iv record : Bytes} {seq n : Nat} {ms : List Bytes}
    (h : Carries S key iv seq record ms n) {m : Bytes} (hm : m ∈ ms) : m.length + 5 ≤ record.length ∧ m.length < 65536 := by
  cases h with
  | plain v1 v2 m' junk h =>
    rw [List.mem_singleton.1 hm]
    simp only [plaintextRecord, List.length_append, List.length_cons, List.length_nil, u16] at h ⊢
    omega
  | encrypted v1 v2 ct ms padding h ho =>
    have := hol _ _ _ _ _ ho
    have h1 := mem_length hm
    simp only [Fragment.inner, List.length_append, List.length_cons, List.length_nil, u16, List.length_replicate] at this ⊢
    omega
  | changeCipherSpec v1 v2 payload h => cases hm

theorem RecordsCarry.length (hol : S.OpenLength) {key iv : Bytes} {seq : Nat} {fl : List (Bytes × List (Bytes × RawMsg))}
    (h : RecordsCarry S key iv seq fl) {room : Nat} (hr : ∀ g ∈ fl, g.1.length ≤ room + 5) :
    ∀ m ∈ fl.flatMap Prod.snd, m.1.length ≤ room ∧ m.1.length < 65536 := by
  induction h with
  | nil => intro m hm; cases hm
  | cons seq n record ms rest h _ ih =>
    intro m hm
    rw [List.flatMap_cons, List.mem_append] at hm
    rcases hm with hm | hm
    · have := Carries.length S hol h (List.mem_map_of_mem hm)
      have := hr _ List.mem_cons_self
      simp only at this
      omega
    · exact ih (fun g hg => hr g (List.mem_cons_of_mem _ hg)) m hm

theorem inClear_carries (key iv : Bytes) (ms : List (Bytes × RawMsg)) (h : ∀ m ∈ ms, m.1.length < 65536) :
    RecordsCarry S key iv 0 (ms.map fun m => (plaintextRecord 22 [3, 3] m.1, [m])) := by
  induction ms with
  | nil => exact .nil _
  | cons m ms ih =>
    refine .cons 0 0 _ _ _ ?_ (ih fun m hm => h m (List.mem_cons_of_mem _ hm))
    have := Carries.plain (S := S) (key := key) (iv := iv) (seq := 0) 3 3 m.1 [] (by simpa using h m List.mem_cons_self)
    simpa using this

/-- **C114, refuted in general** Whatever a server does to be accepted (its messages ending with its one Finished), it is also
accepted when it sends all its messages, certificates and Finished included, without protection: for every acceptable input
the same messages in unprotected records make `open` succeed. -/
theorem C114_in_clear (hS : S.Lawful) (cfg : Config) (p : Provider V) (v : V) {c : Conn} (hf : c.Fresh S)
    (hclean : c.rx.Clean) (hrel : Reliable c.tx)
    (hhost : ∀ ops name, p.verifier = some ops → cfg.serverName = some name → ∃ v', ops.setHostname name v = (.ok (), v'))
    (hsig : ∀ sign scheme, p.signer = .ok (sign, scheme) → ∀ m sig, sign m = some sig → sig.length ≤ signatureSize S)
    (hfh : 5 + helloLength S cfg p ≤ c.wb.buffer.length) (hff : S.hashLen + 26 ≤ c.wb.buffer.length)
    (hfm : ∀ tr ctx ms, ctx.length ≤ 256 → clientReply S p tr (some ctx) = some ms →
      ∀ m ∈ ms, m.length + 22 ≤ c.wb.buffer.length)
    {x : ServerInput} (hx : Acceptable S cfg p v c.rr.buf.length x) (hcnt : x.msgs.length < 2 ^ 64)
    {a : List (Bytes × RawMsg)} {fm vd : Bytes} (hend : x.msgs = a ++ [(fm, .finished vd)]) (ha : noFinished a)
    {rest : Bytes} (hb : c.rx.bytes = plaintextRecord 22 [x.version.1, x.version.2] (x.sh ++ x.junk) ++
      (x.msgs.flatMap fun m => plaintextRecord 22 [3, 3] m.1) ++ rest) :
    ∃ c', Conn.open_ S cfg p v c = (.ok (), c') ∧ c'.rx.bytes = rest := by
  have hl := RecordsCarry.length S hS.openLength hx.records hx.fits
  have hx' : Acceptable S cfg p v c.rr.buf.length x.inClear := {
    shFits := hx.shFits
    shLength := hx.shLength
    shEncoded := hx.shEncoded
    share := hx.share
    dhe := hx.dhe
    records := inClear_carries S _ _ _ fun m hm => (hl m hm).2
    fits := by
      intro g hg
      obtain ⟨m, hm, rfl⟩ := List.mem_map.1 hg
      have := (hl m hm).1
      simp only [plaintextRecord, List.length_append, List.length_cons, List.length_nil, u16]
      omega
    msgs := by rw [inClear_msgs]; exact hx.msgs
    finished := by rw [inClear_msgs]; exact hx.finished
    last := by
      refine ⟨a.map fun m => (plaintextRecord 22 [3, 3] m.1, [m]), plaintextRecord 22 [3, 3] fm, [(fm, .finished vd)], ?_, ?_, ?_⟩
      · simp only [ServerInput.inClear, hend, List.map_append, List.map_cons, List.map_nil]
      · intro g hg
        obtain ⟨m, hm, rfl⟩ := List.mem_map.1 hg
        intro m' hm' v'
        rw [List.mem_singleton.1 hm']
        exact ha m hm v'
      · intro h
        exact h _ List.mem_cons_self vd rfl
    verifier := by rw [inClear_msgs]; exact hx.verifier
    answer := by rw [inClear_msgs]; exact hx.answer }
  exact acceptable_open S hS cfg p v hf hclean hrel hhost hsig hfh hff hfm hx'
    (by simpa [ServerInput.inClear] using hcnt) (rest := rest) (by rw [hb, inClear_bytes])

/-- The smallest flight, in the clear. -/
def exInClear : Bytes :=
  plaintextRecord 22 [3, 3] exSH.bytes ++ plaintextRecord 22 [3, 3] (RawMsg.encryptedExtensions []).bytes ++
    plaintextRecord 22 [3, 3] (RawMsg.finished (verifyData toySuite (exSecret exCfg exSH)
      (exHelloMsg exCfg ++ exSH.bytes ++ (RawMsg.encryptedExtensions []).bytes))).bytes

set_option maxRecDepth 10000 in
/-- **C114, refuted** ServerHello, EncryptedExtensions and Finished, none of them protected. -/
theorem C114_refuted : (Conn.open_ toySuite exCfg exProv () (exNew 400 [.data exInClear])).1 = .ok () := by decide +kernel

/-! ## Examples -/

-- C114_in_clear: the smallest flight is an acceptable input (and ends with its one Finished)
example : ∃ x rest, Acceptable toySuite exCfg exProv () 400 x ∧ exServer exCfg exSH exMin = x.bytes ++ rest :=
  ((exAccept _ (by decide +kernel) (by decide +kernel)).1 exMin_ok).2

end ETls
