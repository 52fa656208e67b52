import Verif.Props.WholeLife
import Verif.Props.NativeAuth

/-! # Calling `open` more than once

`open` takes `&mut self` (`asynch.rs:95`), so a program may call it again: after a failure, or on a connection that is
already open.  The key schedule, the transcript, the open flag and the unread data are not reset. -/

namespace ETls
open Spec

variable {V : Type} (S : Suite)

/-- What the transport still has to deliver and to accept. -/
def Conn.reconnect (c : Conn) (rx : Rx) (ctl : List OutCtl) : Conn := { c with rx := rx, tx := { c.tx with ctl := ctl } }

set_option maxRecDepth 20000 in
/-- **C67 is false** The server `exServer` is accepted by `open` on a new connection; if the transport refuses the very first
write, so that nothing at all was sent, and `open` is called again with a working transport and the same server, the
handshake fails: the key schedule and the transcript still contain the first attempt. -/
theorem C67_refuted :
    (Conn.open_ toySuite exCfg exProv () (exLife [] [])).1 = .ok () ∧
    (Conn.open_ toySuite exCfg exProv () (exLife [.fail 3 0] [])).1 = .err (.io 3) ∧
    (Conn.open_ toySuite exCfg exProv () (exLife [.fail 3 0] [])).2.tx.log = [.partialWrite []] ∧
    (Conn.open_ toySuite exCfg exProv () (Conn.open_ toySuite exCfg exProv () (exLife [.fail 3 0] [])).2).1 =
      .err .cryptoError := by
  decide +kernel

set_option maxRecDepth 20000 in
/-- **C68 is false** An opened connection has one unread byte of a record of two; `open` is called again and the network
answers with a plaintext handshake record that has no ServerHello.  `open` fails, but the connection stays open, `write`
accepts data, and `read` returns a byte of that plaintext record as application data. -/
theorem C68_refuted : ∃ (record : Bytes) (c : Conn),
    (exOpened [] [.data (exApp 0 ⟨23, [7, 8], 0⟩)]).1 = .ok () ∧
    Conn.read toySuite 1 (exOpened [] [.data (exApp 0 ⟨23, [7, 8], 0⟩)]).2 = (.ok [7], c) ∧
    (Conn.open_ toySuite exCfg exProv () (c.reconnect [.data record] [])).1 = .err .invalidHandshake ∧
    (Conn.open_ toySuite exCfg exProv () (c.reconnect [.data record] [])).2.opened = true ∧
    (Conn.read toySuite 1 (Conn.open_ toySuite exCfg exProv () (c.reconnect [.data record] [])).2).1 = .ok [99] ∧
    (Conn.write toySuite [1] (Conn.open_ toySuite exCfg exProv () (c.reconnect [.data record] [])).2).1 = .ok 1 := by
  refine ⟨[22, 3, 3, 1, 44, 8, 0, 0, 2, 0, 0] ++ List.replicate 294 99, (Conn.read toySuite 1 (exOpened [] [.data (exApp 0 ⟨23, [7, 8], 0⟩)]).2).2, ?_⟩
  decide +kernel

/-- **C67, the part that holds** If `open` fails because the verifier does not take the host name, the connection is what it
was, on every connection; so a later `open` is as if the first had not been called.  Missing: a retry after anything was
encoded (`C67_refuted`). -/
theorem C67_hostname_partial (cfg : Config) (p : Provider V) (v : V) (c : Conn) (ops : VerifierOps V) (name : Bytes)
    (hv : p.verifier = some ops) (hn : cfg.serverName = some name) (e : TlsError) (v' : V)
    (h : ops.setHostname name v = (.err e, v')) : Conn.open_ S cfg p v c = (.err e, c) := by
  rcases open_ends_host S cfg p v c with ⟨ops', name', h1, h2, _, ho⟩ | ⟨w, r, s', hset, _⟩
  · rw [hv] at h1
    rw [hn] at h2
    injection h1 with h1
    injection h2 with h2
    subst h1 h2
    rw [ho, h]
  · exfalso
    unfold setHostname at hset
    rw [hv, hn] at hset
    simp only [h, Prod.mk.injEq] at hset
    cases hset.1

/-- **C68, the part that holds** On every connection: an `open` that does not succeed leaves the open flag as it was, so a
connection that was not open does not move application data afterwards (`C42_failed_open`).  Missing: a connection that was
open stays open (`C68_refuted`). -/
theorem C68_failed_partial (cfg : Config) (p : Provider V) (v : V) (c : Conn) (h : (Conn.open_ S cfg p v c).1 ≠ .ok ()) :
    (Conn.open_ S cfg p v c).2.opened = c.opened ∧
    (c.opened = false → ∀ ops, (runAny S ops (Conn.open_ S cfg p v c).2).2.opened = false ∧
      List.Forall₂ Refused ops (runAny S ops (Conn.open_ S cfg p v c).2).1) := by
  rcases open_opened S cfg p v c with ⟨h1, _⟩ | ⟨_, h1⟩
  · exact absurd h1 h
  · refine ⟨h1, fun hc ops => ?_⟩
    exact C28_final S ops _ (h1.trans hc)

-- a host name of more than 64 bytes
example : (Conn.open_ toySuite { exCfg with serverName := some (List.replicate 65 97) } (authProv toyNative)
    (PkiVerifier.new (.x509 toyCa)) (exNew 400 [])) = (.err .insufficientSpace, exNew 400 []) :=
  C67_hostname_partial toySuite _ _ _ _ toyNative (List.replicate 65 97) rfl rfl .insufficientSpace
    (PkiVerifier.new (.x509 toyCa)) (by decide)

-- a failed open on an opened connection and on a new one
set_option maxRecDepth 20000 in
example : (Conn.open_ toySuite exCfg exProv () (exOpened [] []).2).1 ≠ .ok () ∧ (exOpened [] []).2.opened = true ∧
    (Conn.open_ toySuite exCfg exProv () (exNew 400 [])).1 ≠ .ok () ∧ (exNew 400 []).opened = false := by
  decide +kernel

end ETls
