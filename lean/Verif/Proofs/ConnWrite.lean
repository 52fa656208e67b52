import Verif.Proofs.WriteRecord

/-! # Writing on a whole connection -/

namespace ETls

variable (S : Suite)

theorem Conn.setWr_wr (c : Conn) (w : WrHalf) : (c.setWr w).wr = w := rfl
theorem Conn.wr_setWr (c : Conn) : c.setWr c.wr = c := rfl
theorem Conn.setWr_setWr (c : Conn) (w w' : WrHalf) : (c.setWr w).setWr w' = c.setWr w' := rfl
theorem Conn.setRd_rd (c : Conn) (w : RdHalf) : (c.setRd w).rd = w := rfl
theorem Conn.rd_setRd (c : Conn) : c.setRd c.rd = c := rfl
theorem Conn.setRd_setRd (c : Conn) (w w' : RdHalf) : (c.setRd w).setRd w' = c.setRd w' := rfl

theorem onWr_bind {α β : Type} (m : M TlsError WrHalf α) (f : α → M TlsError WrHalf β) (c : Conn) :
    onWr (m >>= f) c = (onWr m >>= fun a => onWr (f a)) c := by
  rcases h : m c.wr with ⟨a | e | _, w⟩
  · have h1 : onWr m c = (.ok a, c.setWr w) := by simp only [onWr, h]
    rw [M.bind_ok h1]
    unfold onWr
    rw [M.bind_ok h, Conn.setWr_wr]
    rfl
  · have h1 : onWr m c = (.err e, c.setWr w) := by simp only [onWr, h]
    rw [M.bind_err h1]
    unfold onWr
    rw [M.bind_err h]
  · have h1 : onWr m c = (.panic, c.setWr w) := by simp only [onWr, h]
    rw [M.bind_panic h1]
    unfold onWr
    rw [M.bind_panic h]

theorem respond_eq (tx : Bytes) (c : Conn) : respond tx c = onWr (sendRecord tx true) c := by
  unfold sendRecord
  simp only [if_true]
  have : (onWr (WrHalf.onTx (Tx.writeAll tx)) >>= fun _ => onWr (WrHalf.increment >>= fun _ => WrHalf.onTx Tx.flush)) =
      (onWr (WrHalf.onTx (Tx.writeAll tx)) >>= fun _ => onWr WrHalf.increment >>= fun _ =>
        onWr (WrHalf.onTx Tx.flush)) := by
    congr 1
    funext _ c
    exact onWr_bind _ _ _
  rw [onWr_bind, this]
  rfl

/-- The three outcomes of `respond`. -/
inductive Responded (bytes : Bytes) (c : Conn) : Res TlsError Unit × Conn → Prop where
  | failed (k : IoKind) (p : Bytes) (ctl' : List OutCtl) (hp : p <+: bytes) (hn : ¬ Reliable c.tx) :
      Responded bytes c (.err (.io k), { c with tx := ⟨ctl', c.tx.log ++ [.partialWrite p]⟩ })
  | flushFailed (k : IoKind) (ctl' : List OutCtl) (hn : ¬ Reliable c.tx) :
      Responded bytes c (.err (.io k),
        { c with tx := ⟨ctl', c.tx.log ++ [.wrote bytes, .flushFailed]⟩, ks := { c.ks with client := c.ks.client.next } })
  | done (ctl' : List OutCtl) (hr : Reliable c.tx → ∀ x ∈ ctl', x = .ok) :
      Responded bytes c (.ok (),
        { c with tx := ⟨ctl', c.tx.log ++ [.wrote bytes, .flushed]⟩, ks := { c.ks with client := c.ks.client.next } })

theorem respond_cases (bytes : Bytes) (c : Conn) (hc : c.ks.client.st.counter + 1 < 2 ^ 64) :
    Responded bytes c (respond bytes c) := by
  rw [respond_eq]
  unfold onWr
  have h := sendRecord_cases bytes true c.wr hc
  generalize sendRecord bytes true c.wr = res at h
  cases h with
  | failed k p ctl' hp hn => exact .failed k p ctl' hp hn
  | flushFailed k ctl' hf hn => exact .flushFailed k ctl' hn
  | done ctl' hr => exact .done ctl' hr

/-- The connection after `write_record` left write buffer `wb` and transcript `tr`. -/
def Conn.wrote (c : Conn) (wb : WB) (tr : Bytes) : Conn :=
  { c with wb := wb, ks := { c.ks with server := { c.ks.server with transcript := tr } } }

theorem Conn.writeRecord_of {rec : ClientRecord} {c : Conn} {r : Res TlsError Bytes} {wb : WB} {tr : Bytes}
    (h : WB.writeRecord S rec c.ks.client (c.wb, c.ks.server.transcript) = (r, (wb, tr))) :
    Conn.writeRecord S rec c = (r, c.wrote wb tr) := by
  simp only [Conn.writeRecord, h]; rfl

/-- Nothing that `write_record` does touches the transport. -/
theorem Conn.writeRecord_tx (rec : ClientRecord) (c : Conn) : (Conn.writeRecord S rec c).2.tx = c.tx := by
  unfold Conn.writeRecord
  rcases WB.writeRecord S rec c.ks.client (c.wb, c.ks.server.transcript) with ⟨r, wb, tr⟩
  rfl

variable {V : Type}

theorem onConn_ok {α : Type} {m : M TlsError Conn α} {s : HSt V} {a : α} {c : Conn} (h : m s.c = (.ok a, c)) :
    onConn m s = (.ok a, { s with c := c }) := by simp only [onConn, h]
theorem onConn_err {α : Type} {m : M TlsError Conn α} {s : HSt V} {e : TlsError} {c : Conn} (h : m s.c = (.err e, c)) :
    onConn m s = (.err e, { s with c := c }) := by simp only [onConn, h]
theorem onConn_panic {α : Type} {m : M TlsError Conn α} {s : HSt V} {c : Conn} (h : m s.c = (.panic, c)) :
    onConn m s = (.panic, { s with c := c }) := by simp only [onConn, h]
theorem onKs_ok {α : Type} {m : M TlsError KeySchedule α} {s : HSt V} {a : α} {k : KeySchedule}
    (h : m s.c.ks = (.ok a, k)) : onKs m s = (.ok a, { s with c := { s.c with ks := k } }) := by
  simp only [onKs, h]

end ETls
