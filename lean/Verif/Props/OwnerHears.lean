import Verif.Props.OwnerData
import Verif.Props.WholeLife
import Verif.Props.Transport

/-! # C117: the owner of the certificate's key receives what the application wrote -/

namespace ETls

open Spec Crypto

variable {V : Type}

namespace Spec

/-- The application data in what a receiver has opened. -/
def contents (got : List (UInt8 × Bytes)) : Bytes := ((got.filter fun f => f.1 = 23).map (·.2)).flatten

/-- No record that arrives is forged: one that opens under the number of its place is the one sent under this number. -/
def NoneForged (S : Suite) (key iv : Bytes) (sent arrived : List Bytes) : Prop :=
  ∀ i r f, arrived[i]? = some r → receiveRecord S key iv i r = some f → sent[i]? = some r

/-- A receiver with these keys, sequence numbers from 0, that gets what the client hands to the transport: after any calls of
the application, for everything the client has sent then, and for everything it has sent after a `close`.

`all`: of the records as they were sent it gets all data that was accepted and is not in the client's buffer any more.
`others`: of any other records, as long as it opens them, it gets a beginning of the data accepted, unless one is forged.
`closed`: after `close` it gets all data and a close_notify; and whatever it opens, a close_notify comes after all data. -/
structure HearsApp (S : Suite) (key iv : Bytes) (c' : Conn) : Prop where
  all : ∀ ops : List AnyOp, ops.length < 2 ^ 64 → ∃ evs got, (runAny S ops c').2.tx.log = c'.tx.log ++ evs ∧
    receiveRecords S key iv 0 (wrote evs) = some got ∧
    contents got ++ (runAny S ops c').2.wr.buffered = accepted (writerOps ops) (writerOuts (runAny S ops c').1)
  others : ∀ ops : List AnyOp, ops.length < 2 ^ 64 → ∃ evs, (runAny S ops c').2.tx.log = c'.tx.log ++ evs ∧
    ∀ arrived got, NoneForged S key iv (wrote evs) arrived → receiveRecords S key iv 0 arrived = some got →
      contents got <+: accepted (writerOps ops) (writerOuts (runAny S ops c').1)
  closed : ∀ ops : List AnyOp, ops.length + 2 < 2 ^ 64 → (runAny S ops c').2.opened = true →
    ∃ evs got, (Conn.close S (runAny S ops c').2).2.tx.log = c'.tx.log ++ evs ∧
      receiveRecords S key iv 0 (wrote evs) = some (got ++ [(21, [1, 0])]) ∧
      contents got = accepted (writerOps ops) (writerOuts (runAny S ops c').1) ∧
      ∀ arrived before, NoneForged S key iv (wrote evs) arrived →
        receiveRecords S key iv 0 arrived = some (before ++ [(21, [1, 0])]) →
        contents before = accepted (writerOps ops) (writerOuts (runAny S ops c').1)

end Spec

section
variable {S : Suite}

theorem receiveRecords_length {key iv : Bytes} : ∀ {rs : List Bytes} {n : Nat} {got : List (UInt8 × Bytes)},
    receiveRecords S key iv n rs = some got → got.length = rs.length
  | [], n, got, h => by simp only [receiveRecords, Option.some.injEq] at h; subst h; rfl
  | r :: rs, n, got, h => by
    unfold receiveRecords at h
    split at h
    · rename_i f fs h1 h2
      simp only [Option.some.injEq] at h
      subst h
      simp [receiveRecords_length h2]
    · cases h

theorem receiveRecords_get {key iv : Bytes} : ∀ {rs : List Bytes} {n : Nat} {got : List (UInt8 × Bytes)},
    receiveRecords S key iv n rs = some got → ∀ i f, got[i]? = some f → ∃ r, rs[i]? = some r ∧
      receiveRecord S key iv (n + i) r = some f
  | [], n, got, h, i, f, hf => by simp only [receiveRecords, Option.some.injEq] at h; subst h; simp at hf
  | r :: rs, n, got, h, i, f, hf => by
    unfold receiveRecords at h
    split at h
    · rename_i g gs h1 h2
      simp only [Option.some.injEq] at h
      subst h
      cases i with
      | zero => simp only [List.getElem?_cons_zero, Option.some.injEq] at hf; subst hf; exact ⟨r, rfl, h1⟩
      | succ i =>
        obtain ⟨r', k1, k2⟩ := receiveRecords_get h2 i f (by simpa using hf)
        exact ⟨r', by simpa using k1, by rw [← k2]; congr 1; omega⟩
    · cases h

/-- Without forgery a receiver opens a beginning of what was sent. -/
theorem noneForged_prefix {key iv : Bytes} {sent arrived : List Bytes} {all got : List (UInt8 × Bytes)}
    (hs : receiveRecords S key iv 0 sent = some all) (hn : NoneForged S key iv sent arrived)
    (h : receiveRecords S key iv 0 arrived = some got) : got <+: all := by
  rw [List.prefix_iff_getElem?]
  intro i hi
  obtain ⟨r, h1, h2⟩ := receiveRecords_get h i got[i] (List.getElem?_eq_getElem hi)
  have h3 := hn i r _ h1 (by simpa using h2)
  have hlen := receiveRecords_length hs
  have hi' : i < all.length := by
    rw [hlen]
    exact (List.getElem?_eq_some_iff.1 h3).1
  obtain ⟨r', h4, h5⟩ := receiveRecords_get hs i all[i] (List.getElem?_eq_getElem hi')
  rw [h3] at h4
  injection h4 with h4
  subst h4
  rw [h2] at h5
  injection h5 with h5
  rw [List.getElem?_eq_getElem hi', h5]

theorem contents_data (sent : List Bytes) : contents (sent.map fun x => ((23 : UInt8), x)) = sent.flatten := by
  unfold contents
  rw [List.filter_eq_self.2 (by simp)]
  simp [List.map_map, Function.comp_def]

theorem contents_append (a b : List (UInt8 × Bytes)) : contents (a ++ b) = contents a ++ contents b := by
  simp [contents]

theorem contents_prefix {a b : List (UInt8 × Bytes)} (h : a <+: b) : contents a <+: contents b := by
  obtain ⟨t, rfl⟩ := h
  exact ⟨contents t, (contents_append _ _).symm⟩

end

/-- **C117, any connection** `new`, a successful `open`, a transport whose sending side does not fail, and a write buffer below
65652 bytes (with more, the length field of a record can wrap, `C18_length_refuted`).  Whoever has the client's application
key receives what the application writes. -/
theorem C117_hears {S : Suite} (hS : S.Lawful) (cfg : Config) (p : Provider V) (hr : p.random.length = 32) (v : V) {rx : Rx}
    {tx : Tx} {rb wb : Bytes} {c c' : Conn} (hn : Conn.new S rx tx rb wb = .ok c)
    (h : Conn.open_ S cfg p v c = (.ok (), c')) (ht : Reliable c'.tx) (hwb : wb.length < 65652) :
    HearsApp S c'.ks.client.st.key c'.ks.client.st.iv c' := by
  have recv : ∀ (sent : List Bytes) (tail : List (UInt8 × Bytes)), (∀ x ∈ sent, x.length + 133 ≤ wb.length) →
      (∀ f ∈ tail, f.2.length + 17 < 65536) →
      receiveRecords S c'.ks.client.st.key c'.ks.client.st.iv 0 (ciphertextRecords S c'.ks.client.st.key c'.ks.client.st.iv 0
        (sent.map (fun x => (23, x)) ++ tail)) = some (sent.map (fun x => (23, x)) ++ tail) := by
    intro sent tail h1 h2
    apply receive_ciphertexts S hS
    intro f hf
    rcases List.mem_append.1 hf with hf | hf
    · obtain ⟨x, hx, rfl⟩ := List.mem_map.1 hf
      have := h1 x hx
      simp only
      omega
    · exact h2 f hf
  refine ⟨fun ops hops => ?_, fun ops hops => ?_, fun ops hops ho => ?_⟩
  · obtain ⟨evs, sent, h1, h2, -, h4, h5⟩ := C10_whole S hS cfg p hr v hn h ops hops
    refine ⟨evs, sent.map fun x => (23, x), h1, ?_, ?_⟩
    · have := recv sent [] h4 (by simp)
      rw [List.append_nil] at this
      rw [h2, this]
    · rw [contents_data]
      exact h5 ht
  · obtain ⟨evs, sent, h1, h2, -, h4, h5⟩ := C10_whole S hS cfg p hr v hn h ops hops
    refine ⟨evs, h1, fun arrived got ha hg => ?_⟩
    have := recv sent [] h4 (by simp)
    rw [List.append_nil, ← h2] at this
    rw [← h5 ht, ← contents_data]
    exact (contents_prefix (noneForged_prefix this ha hg)).trans (List.prefix_append _ _)
  · obtain ⟨evs, sent, -, h1, -, h2, hlim, h3⟩ := C16_whole_partial S hS cfg p hr v hn h ht ops hops ho
    have hall := recv sent [(21, [1, 0])] hlim (by simp)
    have h2' : wrote evs = ciphertextRecords S c'.ks.client.st.key c'.ks.client.st.iv 0
      (sent.map (fun x => (23, x)) ++ [(21, [1, 0])]) := h2
    rw [← h2'] at hall
    refine ⟨evs, sent.map fun x => (23, x), h1, hall, by rw [contents_data, h3], fun arrived before ha hg => ?_⟩
    have hp := noneForged_prefix hall ha hg
    have hb : before = sent.map fun x => (23, x) := by
      obtain ⟨t, ht'⟩ := hp
      cases ht2 : t using List.reverseRecOn with
      | nil =>
        rw [ht2, List.append_nil] at ht'
        exact (List.append_inj' ht' rfl).1
      | append_singleton t y =>
        exfalso
        rw [ht2, ← List.append_assoc] at ht'
        have := (List.append_inj' ht' rfl).1
        have hm : ((21 : UInt8), ([1, 0] : Bytes)) ∈ sent.map fun x => ((23 : UInt8), x) := by rw [← this]; simp
        simp at hm
    rw [hb, contents_data, h3]

/-! ## The owner of the certificate's key -/

namespace Spec

/-- What C117 says about a connection and one life of the owner of the certificate's key: the cases of C116, and in the last
one, with the owner's own keys. -/
inductive OwnerHears (S : Suite) (H : Hash) (x : Session) (psk : Option Bytes) (c' : Conn) (l : ServerLife) (dhe : Bytes) : Prop
  | otherFinished : ¬ TookFinished x (l.finished S dhe) → OwnerHears S H x psk c' l dhe
  | clash (before : Bytes) : Clash H H.len
      (serverFinishedInputs S H psk dhe (x.hello ++ x.sh) (x.hello ++ x.sh ++ before))
      (serverFinishedInputs S H l.psk dhe (l.run.hello ++ l.run.sh) (l.run.transcript ++ l.rest)) → OwnerHears S H x psk c' l dhe
  | same : HearsApp S (writeKey S (l.clientSecret S dhe)) (writeIv S (l.clientSecret S dhe)) c' → OwnerHears S H x psk c' l dhe

end Spec

theorem Spec.OwnerData.hears {S : Suite} {H : Hash} {x : Session} {psk : Option Bytes} {c' : Conn} {l : ServerLife} {dhe : Bytes}
    (h : OwnerData S H x psk c' l dhe) (hh : HearsApp S c'.ks.client.st.key c'.ks.client.st.iv c') :
    OwnerHears S H x psk c' l dhe := by
  cases h with
  | otherFinished h => exact .otherFinished h
  | clash b h => exact .clash b h
  | same h1 h2 h3 =>
    rw [h1] at hh
    exact .same hh

/-- **C117, native verifier** A new connection opens with a new native verifier for `ca`, the server has sent a
CertificateVerify, and the transport does not fail.  Then there are certificates that lead to `ca` and name the server, with a
signature under the key in the leaf, and whatever the owner of this key has done — `lives` are its connections —: the signature
is a forgery, or two different strings are exhibited that have the same hash, or one of the owner's connections is the other
end; and if the client took the owner's Finished, then the owner, with the keys it derives itself, receives what the application
writes.  Missing: that the server sends a CertificateVerify at all (`C115_refuted`), write buffers of 65652 bytes and more
(`C18_length_refuted`), failing transports (`C12_refuted`), and closing after the peer (`C16_refuted`). -/
theorem C117_native_partial {S : Suite} (hs : Shipped S) {H : Hash} (hu : UsesHash S H) (L : PkiLib) (F : Features)
    (now : Option Nat) (N : Nat) (cfg : Config) (p : Provider PkiVerifier) (ca : CertEntry) {rx : Rx} {tx : Tx} {rb wb : Bytes}
    {c c' : Conn} (hn : Conn.new S rx tx rb wb = .ok c) (hfit : HelloFits S cfg p) (hr : p.random.length = 32)
    (ha : scalarOf p.secret ≠ 0)
    (hv : p.verifier = some (pkiOps L S F now N)) (h : Conn.open_ S cfg p (PkiVerifier.new ca) c = (.ok (), c'))
    (hclean : rx.Clean) (ht : Reliable c'.tx) (hwb : wb.length < 65652) :
    ∃ x, Established S cfg p (PkiVerifier.new ca) c x c' ∧ ∀ m code sig, (m, .certificateVerify code sig) ∈ x.msgs →
      ∃ certs before, LeadsTo L now ca cfg.serverName certs ∧
        SignedByLeaf L certs code (serverSignedContent S (x.hello ++ x.sh ++ before)) sig ∧
        ∀ lives : ServerLife → Prop, (∀ l, lives l → l.run.Proper S ∧ ∀ f ∈ l.sent, f.type ≠ 0) →
          NotSigned S (fun r => ∃ l, lives l ∧ l.run = r) (serverSignedContent S (x.hello ++ x.sh ++ before)) ∨
          ∃ l, lives l ∧ (Clash H H.len [x.hello ++ x.sh ++ before] [l.run.transcript] ∨
            x.hello = l.run.hello ∧ ∃ dhe, AgreesOn l.run.hello l.run.secret (p256Public l.run.secret) dhe ∧
              OwnerHears S H x (cfg.psk.map (·.1)) c' l dhe) := by
  have hh := C117_hears (C95_lawful S hs) cfg p hr _ hn h ht hwb
  obtain ⟨x, hx, h1⟩ := C116_native_partial hs hu L F now N cfg p ca hn hfit ha hv h hclean
  refine ⟨x, hx, fun m code sig hm => ?_⟩
  obtain ⟨certs, before, h2, h3, h4⟩ := h1 m code sig hm
  refine ⟨certs, before, h2, h3, fun lives hl => ?_⟩
  rcases h4 lives hl with h5 | ⟨l, h5, h6 | ⟨h6, dhe, h7, h8⟩⟩
  · exact .inl h5
  · exact .inr ⟨l, h5, .inl h6⟩
  · exact .inr ⟨l, h5, .inr ⟨h6, dhe, h7, h8.hears hh⟩⟩

/-- **C117, webpki verifier** The same. -/
theorem C117_webpki_partial {S : Suite} (hs : Shipped S) {H : Hash} (hu : UsesHash S H) (W : WebLib) (alloc : Bool)
    (now : Option Nat) (N : Nat) (cfg : Config) (p : Provider PkiVerifier) (ca : CertEntry) {rx : Rx} {tx : Tx} {rb wb : Bytes}
    {c c' : Conn} (hn : Conn.new S rx tx rb wb = .ok c) (hfit : HelloFits S cfg p) (hr : p.random.length = 32)
    (ha : scalarOf p.secret ≠ 0)
    (hv : p.verifier = some (webOps W S alloc now N)) (h : Conn.open_ S cfg p (PkiVerifier.new ca) c = (.ok (), c'))
    (hclean : rx.Clean) (ht : Reliable c'.tx) (hwb : wb.length < 65652) :
    ∃ x, Established S cfg p (PkiVerifier.new ca) c x c' ∧ ∀ m code sig, (m, .certificateVerify code sig) ∈ x.msgs →
      ∃ certs before, WebAccepts W now ca cfg.serverName certs ∧
        WebSigned W certs code (serverSignedContent S (x.hello ++ x.sh ++ before)) sig ∧
        ∀ lives : ServerLife → Prop, (∀ l, lives l → l.run.Proper S ∧ ∀ f ∈ l.sent, f.type ≠ 0) →
          NotSigned S (fun r => ∃ l, lives l ∧ l.run = r) (serverSignedContent S (x.hello ++ x.sh ++ before)) ∨
          ∃ l, lives l ∧ (Clash H H.len [x.hello ++ x.sh ++ before] [l.run.transcript] ∨
            x.hello = l.run.hello ∧ ∃ dhe, AgreesOn l.run.hello l.run.secret (p256Public l.run.secret) dhe ∧
              OwnerHears S H x (cfg.psk.map (·.1)) c' l dhe) := by
  have hh := C117_hears (C95_lawful S hs) cfg p hr _ hn h ht hwb
  obtain ⟨x, hx, h1⟩ := C116_webpki_partial hs hu W alloc now N cfg p ca hn hfit ha hv h hclean
  refine ⟨x, hx, fun m code sig hm => ?_⟩
  obtain ⟨certs, before, h2, h3, h4⟩ := h1 m code sig hm
  refine ⟨certs, before, h2, h3, fun lives hl => ?_⟩
  rcases h4 lives hl with h5 | ⟨l, h5, h6 | ⟨h6, dhe, h7, h8⟩⟩
  · exact .inl h5
  · exact .inr ⟨l, h5, .inl h6⟩
  · exact .inr ⟨l, h5, .inr ⟨h6, dhe, h7, h8.hears hh⟩⟩

/-! ## Examples -/

/-- A transport that works goes on working after `open`. -/
theorem open_reliable {S : Suite} (cfg : Config) (p : Provider V) (hp : p.Plain) (v : V) {c c' : Conn}
    (h : Conn.open_ S cfg p v c = (.ok (), c')) (ht : Reliable c.tx) : Reliable c'.tx := by
  have := C85_open S cfg p hp v c
  rw [h] at this
  cases this with
  | quiet a b d =>
    obtain ⟨evs, -, -, -, e⟩ := b
    intro x hx
    rw [e] at hx
    exact ht x (List.mem_of_mem_drop hx)

-- C117_native_partial: the connection with OpenSSL of C115 meets the hypotheses
example : ∃ rb wb c c' x, Conn.new (aes128GcmSha256 false) [.data recRx1] ⟨[], []⟩ rb wb = .ok c ∧
    Conn.open_ (aes128GcmSha256 false) (recCfg []) recNative (PkiVerifier.new (.x509 recCa)) c = (.ok (), c') ∧
    Established (aes128GcmSha256 false) (recCfg []) recNative (PkiVerifier.new (.x509 recCa)) c x c' ∧
    HearsApp (aes128GcmSha256 false) c'.ks.client.st.key c'.ks.client.st.iv c' := by
  obtain ⟨rb, wb, c, c', h1, h2, h3⟩ := recRun_new openssl_native
  have hs : Shipped (aes128GcmSha256 false) := ⟨false, .inl rfl⟩
  obtain ⟨H, hu⟩ : ∃ H, UsesHash (aes128GcmSha256 false) H := hs.usesHash.elim (fun h => ⟨_, h⟩) (fun h => ⟨_, h⟩)
  have hr : recNative.random.length = 32 := by decide +kernel
  have ht : Reliable c'.tx := open_reliable _ _ (native_plain _ _ _ _ _ _ _ _ _ (by intro e he; injection he with he; subst he; simp [TransportError])) _ h2
    (by rw [(Conn.new_parts _ h1).2.2.1]; intro x hx; simp at hx)
  obtain ⟨x, hx, -⟩ := C117_native_partial hs hu _ _ _ _ (recCfg []) recNative (.x509 recCa) h1 recNative_fits hr rec_scalar rfl h2
    (by intro e he; simp only [List.mem_singleton] at he; exact ⟨_, by decide +kernel, he⟩) ht (by omega)
  exact ⟨rb, wb, c, c', x, h1, h2, hx, C117_hears (C95_lawful _ hs) _ _ hr _ h1 h2 ht (by omega)⟩

set_option maxRecDepth 20000 in
-- C117_hears: what the server gets of the records of a write, a flush, a write and `close`
example : (exOpened [] []).1 = .ok () ∧ Reliable (exOpened [] []).2.tx ∧
    receiveRecords toySuite (exOpened [] []).2.ks.client.st.key (exOpened [] []).2.ks.client.st.iv 0
      (wrote ((Conn.close toySuite (runAny toySuite [.writer (.write [1, 2]), .writer .flush, .writer (.write [3])]
        (exOpened [] []).2).2).2.tx.log.drop (exOpened [] []).2.tx.log.length)) = some [(23, [1, 2]), (23, [3]), (21, [1, 0])] ∧
    contents [(23, [1, 2]), (23, [3]), (21, [1, 0])] = [1, 2, 3] := by
  refine ⟨by decide +kernel, ?_, by decide +kernel, by decide +kernel⟩
  have : (exOpened [] []).2.tx.ctl = [] := by decide +kernel
  intro x hx
  rw [this] at hx
  cases hx

end ETls
