import Verif.Proofs.ClientMsg
import Verif.Props.WritePath

/-! # `write_record`: encoding a handshake or alert record into the write buffer -/

namespace ETls

variable (S : Suite)

theorem onFst_ok {ε σ τ α : Type} {m : M ε σ α} {s s' : σ} {a : α} (h : m s = (.ok a, s')) (t : τ) :
    onFst m (s, t) = (.ok a, (s', t)) := by simp only [onFst, h]
theorem onFst_err {ε σ τ α : Type} {m : M ε σ α} {s s' : σ} {e : ε} (h : m s = (.err e, s')) (t : τ) :
    onFst m (s, t) = (.err e, (s', t)) := by simp only [onFst, h]
theorem onFst_panic {ε σ τ α : Type} {m : M ε σ α} {s s' : σ} (h : m s = (.panic, s')) (t : τ) :
    onFst m (s, t) = (.panic, (s', t)) := by simp only [onFst, h]

/-- What `finish_record` does to the encoded payload `bs` and the transcript `tr`. -/
def Finishes (rec : ClientRecord) (w : WriteKS) (bs tr bs' tr' : Bytes) : Prop :=
  bs'.length = bs.length ∧ ∀ A rest : Bytes,
    rec.finishRecord S w (⟨A ++ (bs ++ rest), A.length, bs.length⟩, tr) =
      (.ok (), (⟨A ++ (bs' ++ rest), A.length, bs.length⟩, tr'))

theorem asSlice_mid (A bs rest : Bytes) : CB.asSlice ⟨A ++ (bs ++ rest), A.length, bs.length⟩ = bs := by
  simp [CB.asSlice]

/-- Alerts do not touch the transcript. -/
theorem finishes_alert (a : Alert) (e : Bool) (w : WriteKS) (bs tr : Bytes) :
    Finishes S (.alert a e) w bs tr bs tr := ⟨rfl, fun _ _ => rfl⟩

/-- A handshake message other than the ClientHello is added to the transcript. -/
theorem finishes_encrypted (h : ClientHs) (w : WriteKS) (bs tr : Bytes) :
    Finishes S (.handshake h true) w bs tr bs (tr ++ bs) := by
  refine ⟨rfl, fun A rest => ?_⟩
  cases h <;> simp only [ClientRecord.finishRecord, asSlice_mid]

theorem finishes_hello {h : ClientHello} {w : WriteKS} {bs tr bs' tr' : Bytes}
    (hf : h.finalize S w (bs, tr) = (.ok (), (bs', tr'))) (hl : bs'.length = bs.length) :
    Finishes S (.handshake (.clientHello h) false) w bs tr bs' tr' := by
  refine ⟨hl, fun A rest => ?_⟩
  simp only [ClientRecord.finishRecord, asSlice_mid, hf]
  rw [splice_at_length _ _ _ _ rfl, hl, List.drop_left]

theorem withBuffer_ok {τ : Type} {op : M TlsError (CB × τ) Unit} {w : WB} {t t' : τ} {c : CB}
    (h : op (CB.wrapWithPos w.buffer w.pos, t) = (.ok (), (c, t'))) :
    WB.withBuffer op (w, t) = (.ok (), ({ w with buffer := c.buf, pos := c.len }, t')) := by
  simp only [WB.withBuffer, h]

theorem withBuffer_err {τ : Type} {op : M TlsError (CB × τ) Unit} {w : WB} {t t' : τ} {c : CB} {e : TlsError}
    (h : op (CB.wrapWithPos w.buffer w.pos, t) = (.err e, (c, t'))) :
    WB.withBuffer op (w, t) = (.err e, ({ w with buffer := c.buf }, t')) := by
  simp only [WB.withBuffer, h]

/-- With a record already open, `write_record` refuses. -/
theorem writeRecord_busy (rec : ClientRecord) (wks : WriteKS) (w : WB) (tr : Bytes) (h : w.header.isSome = true) :
    WB.writeRecord S rec wks (w, tr) = (.err .internalError, (w, tr)) := by
  unfold WB.writeRecord
  rw [M.get_bind]
  simp only
  rw [if_pos h]
  rfl

private theorem forward_five (b : Bytes) : CB.forward ⟨b, 0, 5⟩ = (.ok (), ⟨b, 5, 0⟩) := by
  simp [CB.forward, CB.setOffset]

/-- The part of `write_record` that encodes the payload, when the payload fits. -/
theorem writePayload_ok (rec : ClientRecord) (wks : WriteKS) (w : WB) (bs tr bs' tr' : Bytes)
    (hh : w.Holds rec.header []) (ha : Appends (rec.encodePayload S) bs ()) (hf : Finishes S rec wks bs tr bs' tr')
    (hfit : 5 + bs.length ≤ w.buffer.length) :
    ∃ w', WB.withBuffer (do
        onFst CB.forward
        onFst (rec.encodePayload S)
        rec.finishRecord S wks
        onFst CB.rewind) (w, tr) = (.ok (), (w', tr')) ∧ w'.Holds rec.header bs' ∧
        w'.buffer.length = w.buffer.length := by
  obtain ⟨buf, pos, hdr⟩ := w
  obtain ⟨h1, h2, x, y, rest, h3⟩ := hh
  simp only [List.length_nil, Nat.add_zero, List.nil_append] at h1 h2 h3 hfit
  subst h1 h2 h3
  have h3l := rec.header.bytes3_length
  have hA : (rec.header.bytes3 ++ [x, y]).length = 5 + 0 := by simp [h3l]
  have hrest : bs.length ≤ rest.length := by simp [h3l] at hfit; omega
  obtain ⟨g, _⟩ := ha 5 0 (rec.header.bytes3 ++ [x, y]) rest hA
  have g := g hrest
  obtain ⟨hl, hf⟩ := hf
  have hf := hf (rec.header.bytes3 ++ [x, y]) (rest.drop bs.length)
  rw [hA] at hf
  refine ⟨⟨(rec.header.bytes3 ++ [x, y]) ++ (bs' ++ rest.drop bs.length), 5 + bs.length, some rec.header⟩,
    ?_, ⟨rfl, by simp [hl], x, y, rest.drop bs.length, by simp⟩, ?_⟩
  · rw [withBuffer_ok (c := ⟨(rec.header.bytes3 ++ [x, y]) ++ (bs' ++ rest.drop bs.length), 0, 5 + bs.length⟩) (t' := tr')]
    unfold CB.wrapWithPos
    rw [M.bind_ok (onFst_ok (forward_five _) tr)]
    rw [← List.append_assoc, M.bind_ok (onFst_ok g tr)]
    rw [Nat.zero_add]
    rw [M.bind_ok hf]
    exact onFst_ok (by simp [CB.rewind, CB.setOffset]; omega) _
  · simp [h3l, hl]; omega

/-- The same when it does not fit. -/
theorem writePayload_short (rec : ClientRecord) (wks : WriteKS) (w : WB) (bs tr : Bytes)
    (hh : w.Holds rec.header []) (ha : Appends (rec.encodePayload S) bs ())
    (hfit : w.buffer.length < 5 + bs.length) :
    ∃ e w', WB.withBuffer (do
        onFst CB.forward
        onFst (rec.encodePayload S)
        rec.finishRecord S wks
        onFst CB.rewind) (w, tr) = (.err e, (w', tr)) ∧ w'.Holds rec.header [] ∧
        w'.buffer.length = w.buffer.length ∧ (e = .insufficientSpace ∨ e = .encodeError) := by
  obtain ⟨buf, pos, hdr⟩ := w
  obtain ⟨h1, h2, x, y, rest, h3⟩ := hh
  simp only [List.length_nil, Nat.add_zero, List.nil_append] at h1 h2 h3 hfit
  subst h1 h2 h3
  have h3l := rec.header.bytes3_length
  have hA : (rec.header.bytes3 ++ [x, y]).length = 5 + 0 := by simp [h3l]
  obtain ⟨_, g⟩ := ha 5 0 (rec.header.bytes3 ++ [x, y]) rest hA
  obtain ⟨e, B', l', he, hl, _, _, g⟩ := g (by simp [h3l] at hfit; omega)
  refine ⟨e, ⟨rec.header.bytes3 ++ [x, y] ++ B', 5, some rec.header⟩, ?_,
    ⟨rfl, rfl, x, y, B', by simp⟩, by simp [hl], he⟩
  rw [withBuffer_err (c := ⟨rec.header.bytes3 ++ [x, y] ++ B', 5, l'⟩) (t' := tr) (e := e)]
  unfold CB.wrapWithPos
  rw [M.bind_ok (onFst_ok (forward_five _) tr)]
  rw [← List.append_assoc, M.bind_err (onFst_err g tr)]

/-- `write_record` on an idle write buffer, for a record that fits. -/
theorem writeRecord_ok (hS : S.Sized) (rec : ClientRecord) (wks : WriteKS) (w : WB) (bs tr bs' tr' : Bytes)
    (hi : w.Idle) (hL : 5 ≤ w.buffer.length) (ha : Appends (rec.encodePayload S) bs ())
    (hf : Finishes S rec wks bs tr bs' tr') (hfit : recordRoom rec.header bs ≤ w.buffer.length) :
    ∃ w', WB.writeRecord S rec wks (w, tr) = (.ok (recordBytes S wks rec.header bs'), (w', tr')) ∧ w'.Idle ∧
      w'.buffer.length = w.buffer.length := by
  obtain ⟨w1, g1, g2, g3⟩ := startRecord_idle rec.header w hi hL
  obtain ⟨w2, k1, k2, k3⟩ := writePayload_ok S rec wks w1 bs tr bs' tr' g2 ha hf (by
    unfold recordRoom at hfit; omega)
  obtain ⟨w3, c1, c2, c3⟩ := closeRecord_ok S hS wks w2 rec.header bs' k2 (by
    unfold recordRoom at hfit ⊢; rw [hf.1]; omega)
  refine ⟨w3, ?_, c2, by omega⟩
  unfold WB.writeRecord
  rw [M.get_bind]
  simp only
  rw [if_neg (by simp [hi.header]), M.bind_ok (onFst_ok g1 tr), M.bind_ok k1, onFst_ok c1]

/-- `write_record` on an idle write buffer, for a record that does not fit: an error; the buffer is left with an open
empty record, or (if only the trailer and tag were missing) with no record but a position after the payload. -/
theorem writeRecord_short (hS : S.Sized) (rec : ClientRecord) (wks : WriteKS) (w : WB) (bs tr bs' tr' : Bytes)
    (hi : w.Idle) (hL : 5 ≤ w.buffer.length) (ha : Appends (rec.encodePayload S) bs ())
    (hf : Finishes S rec wks bs tr bs' tr') (hfit : w.buffer.length < recordRoom rec.header bs) :
    ∃ e w' tr'', WB.writeRecord S rec wks (w, tr) = (.err e, (w', tr'')) ∧
      w'.buffer.length = w.buffer.length ∧
      (w.buffer.length < 5 + bs.length → w'.Holds rec.header [] ∧ tr'' = tr) ∧
      (5 + bs.length ≤ w.buffer.length → w'.header = none ∧ w'.pos = 5 + bs.length ∧ tr'' = tr') := by
  obtain ⟨w1, g1, g2, g3⟩ := startRecord_idle rec.header w hi hL
  by_cases hb : 5 + bs.length ≤ w.buffer.length
  · obtain ⟨w2, k1, k2, k3⟩ := writePayload_ok S rec wks w1 bs tr bs' tr' g2 ha hf (by omega)
    obtain ⟨e, w3, c1, c2, c3, c4⟩ := closeRecord_short S hS wks w2 rec.header bs' k2 (by
      unfold recordRoom at hfit ⊢; rw [hf.1]; omega)
    refine ⟨e, w3, tr', ?_, by omega, fun h => absurd hb (by omega), fun _ => ⟨c2, ?_, rfl⟩⟩
    · unfold WB.writeRecord
      rw [M.get_bind]
      simp only
      rw [if_neg (by simp [hi.header]), M.bind_ok (onFst_ok g1 tr), M.bind_ok k1, onFst_err c1]
    · rw [c3, k2.pos, hf.1]
  · obtain ⟨e, w2, k1, k2, k3, _⟩ := writePayload_short S rec wks w1 bs tr g2 ha (by omega)
    refine ⟨e, w2, tr, ?_, by omega, fun _ => ⟨k2, rfl⟩, fun h => absurd h hb⟩
    unfold WB.writeRecord
    rw [M.get_bind]
    simp only
    rw [if_neg (by simp [hi.header]), M.bind_ok (onFst_ok g1 tr), M.bind_err k1]

end ETls
