import Verif.Props.OpenReply

/-! # C77: `open` refines a description of the handshake on the byte stream -/

namespace ETls

variable (S : Suite) {V : Type}

open Spec (Stands Framed Named Opens OpenEnd Told HelloRecord Flights Replies plaintextRecord clientApplicationTraffic
  serverApplicationTraffic serverHandshakeTraffic clientHandshakeTraffic)

/-- The result of `open` on the connection `c`, and the connection after it, are as described. -/
def OpenAgrees (psk : Option Bytes) (c : Conn) (r : Res TlsError Unit) (c' : Conn) : OpenEnd → Prop
  | .opened sent dhe t rest => r = .ok () ∧ c'.opened = true ∧ c'.tx.log = c.tx.log ++ sentRecords sent ∧ c'.rx.bytes = rest ∧
      c'.ks.client.st = trafficState S (clientApplicationTraffic S psk dhe t) ∧
      c'.ks.server.st = trafficState S (serverApplicationTraffic S psk dhe t)
  | .error sent e => ∃ y, r = .err y ∧ Stands e y ∧ c'.tx.log = c.tx.log ++ sentRecords sent ∧ c'.opened = false
  | .refusal sent e => ∃ y told, r = .err y ∧ Stands e y ∧ Told y told ∧
      c'.tx.log = c.tx.log ++ sentRecords (sent ++ told) ∧ c'.opened = false
  | .abort sent => r = .panic ∧ c'.tx.log = c.tx.log ++ sentRecords sent

theorem told_alertsOf (e : TlsError) : Told e (alertsOf e) := by
  by_cases h : ∃ l d, e = .abortHandshake l d
  · obtain ⟨l, d, rfl⟩ := h
    exact .alert l d _ _ (C04_alert_level.encode_table l) (C04_alert_description.encode_table d)
  · have hn : alertsOf e = [] := by
      cases e <;> first | rfl | exact absurd ⟨_, _, rfl⟩ h
    rw [hn]
    exact .nothing e fun l d he => h ⟨l, d, he⟩

/-- The connection after the loop of `open`. -/
def afterLoop : Res TlsError Unit × HSt V → Conn
  | (.ok _, s) => { s.c with opened := true }
  | (_, s) => s.c

theorem open_named (cfg : Config) (p : Provider V) (v : V) (c : Conn) :
    (∃ v0, Named p v cfg.serverName (.ok v0) ∧ ∀ x, openLoop S cfg p (c.rx.size + 8) .clientHello ⟨c, ⟨none, none, none, v0⟩⟩ = x →
      Conn.open_ S cfg p v c = (x.1, afterLoop x)) ∨
    (∃ e, Named p v cfg.serverName (.err e) ∧ Conn.open_ S cfg p v c = (.err e, c)) ∨
    (Named p v cfg.serverName .panic ∧ Conn.open_ S cfg p v c = (.panic, c)) := by
  have hgo : ∀ v0, setHostname cfg p ⟨c, ⟨none, none, none, v⟩⟩ = (.ok (), ⟨c, ⟨none, none, none, v0⟩⟩) →
      ∀ x, openLoop S cfg p (c.rx.size + 8) .clientHello ⟨c, ⟨none, none, none, v0⟩⟩ = x →
      Conn.open_ S cfg p v c = (x.1, afterLoop x) := by
    intro v0 h x hx
    unfold Conn.open_ openSt
    rw [M.bind_ok h, M.get_bind]
    obtain ⟨r, s9⟩ := x
    cases r with
    | ok u => simp only; rw [M.bind_ok hx]; rfl
    | err e => simp only; rw [M.bind_err hx]; rfl
    | panic => simp only; rw [M.bind_panic hx]; rfl
  rcases hv : p.verifier with _ | ops
  · exact .inl ⟨v, .noVerifier _ hv, hgo v (by unfold setHostname; rw [hv]; rfl)⟩
  · rcases hn : cfg.serverName with _ | name
    · exact .inl ⟨v, .noName (by rw [hv]; simp), hgo v (by unfold setHostname; rw [hv, hn]; rfl)⟩
    · rcases hh : ops.setHostname name v with ⟨r, v'⟩
      have hset : setHostname cfg p ⟨c, ⟨none, none, none, v⟩⟩ = (r, ⟨c, ⟨none, none, none, v'⟩⟩) := by
        unfold setHostname
        rw [hv, hn]
        simp only [hh]
      cases r with
      | ok u => exact .inl ⟨v', .accepted ops name v' hv hh, hgo v' hset⟩
      | err e =>
        refine .inr (.inl ⟨e, .rejected ops name v' e hv hh, ?_⟩)
        unfold Conn.open_ openSt
        rw [M.bind_err hset]
      | panic =>
        refine .inr (.inr ⟨.panics ops name v' hv hh, ?_⟩)
        unfold Conn.open_ openSt
        rw [M.bind_panic hset]

/-- **C77** `open` on a fresh connection with an error-free transport and a large enough write buffer does what `Opens`
says about the received bytes: result, error code, records sent, alert, keys, and bytes left in the transport. -/
theorem C77_open (hS : S.Lawful) (cfg : Config) (p : Provider V) (v : V) {c : Conn} (hf : c.Fresh S) (hclean : c.rx.Clean)
    (hrel : Reliable c.tx) (hroom : Roomy S cfg p c.wb.buffer.length) :
    ∃ e, Opens S p v cfg.serverName (cfg.psk.map (·.1)) (helloMsg S cfg p) c.rr.buf.length c.rx.bytes e ∧
      OpenAgrees S (cfg.psk.map (·.1)) c (Conn.open_ S cfg p v c).1 (Conn.open_ S cfg p v c).2 e := by
  rcases open_named S cfg p v c with ⟨v0, hn, hopen⟩ | ⟨e, hn, hopen⟩ | ⟨hn, hopen⟩
  · obtain ⟨binders, msg, wb1, ctl1, a1, a2, a3, a4, a5, a6, a7⟩ := step_hello_fwd S hS cfg p
      ⟨c, ⟨none, none, none, v0⟩⟩ hf.idle hf.keys hrel hroom.hello
    have hmsg : msg = helloMsg S cfg p := by rw [a1]; exact hello_unique S cfg p binders a2 a3
    clear a1 a2 a3
    subst hmsg
    generalize hs1 : (⟨{ c with
              tx := ⟨ctl1, c.tx.log ++ [.wrote (plaintextRecord 22 [3, 1] (helloMsg S cfg p)), .flushed]⟩
              wb := wb1
              ks := ⟨⟨Spec.deriveSecret S (Spec.earlySecret S (cfg.psk.map (·.1))) "derived" [],
                      some (Spec.earlySecret S (cfg.psk.map (·.1)))⟩,
                     WriteKS.next { (KeySchedule.new S).client with binderKey := some (Spec.binderKey S (cfg.psk.map (·.1))) },
                     ⟨(KeySchedule.new S).server.st, helloMsg S cfg p⟩⟩ },
            ⟨none, some p.secret, none, v0⟩⟩ : HSt V) = s1
    have a7 : process S cfg p .clientHello ⟨c, ⟨none, none, none, v0⟩⟩ = (.ok .serverHello, s1) := by
      rw [a7, ← hs1]
    have hlog1 : s1.c.tx.log = c.tx.log ++ sentRecords [plaintextRecord 22 [3, 1] (helloMsg S cfg p)] := by
      rw [← hs1]; simp [sentRecords]
    have hop1 : s1.c.opened = false := by rw [← hs1]; exact hf.closed
    have hcap1 : s1.c.rr.buf.length = c.rr.buf.length := by rw [← hs1]
    have hrx1 : s1.c.rx.bytes = c.rx.bytes := by rw [← hs1]
    have htr1 : s1.c.ks.server.transcript = helloMsg S cfg p := by rw [← hs1]
    have hsize := Rx.bytes_le_size c.rx
    replace hopen := hopen _ (openLoop_step S cfg p (by simp) a7)
    rcases hello_tells S hS cfg p s1 (cfg.psk.map (·.1)) (by rw [← hs1]; exact hf.reader) (by rw [← hs1]; exact hf.nothingRead)
        (by rw [← hs1]; exact hclean) p.secret (by rw [← hs1]) (by rw [← hs1]) with
      ⟨e, s2, b1, b2, b3, b4⟩ | ⟨t, hdr, body, rest, g, b1, b2, b3, b4⟩
    · rw [hcap1, hrx1] at b1
      refine ⟨_, .noRecord v0 e hn b1, ?_⟩
      rw [hopen, openLoop_err S cfg p (by simp) b2]
      exact ⟨e, rfl, rfl, by simp only [afterLoop, b3]; exact hlog1, by simp only [afterLoop, b4]; exact hop1⟩
    · rw [hcap1, hrx1] at b1
      rw [hrx1] at b2
      rw [htr1] at b4
      rcases hx : process S cfg p .serverHello s1 with ⟨r, s2⟩
      rw [hx] at b4
      cases g with
      | error e =>
        obtain ⟨y, y1, y2, y3, y4⟩ := b4
        simp only at y1 y3 y4
        subst y1
        refine ⟨_, .noHello v0 t hdr body rest e hn b1 b3, ?_⟩
        rw [hopen, openLoop_err S cfg p (by simp) hx]
        exact ⟨y, rfl, y2, by simp only [afterLoop, y3]; exact hlog1, by simp only [afterLoop, y4]; exact hop1⟩
      | ok sh dhe =>
        obtain ⟨rr2, rx2, c1, c2, c3, c4, c5, c6⟩ := b4
        have hs2 : s2.c.rr = rr2 ∧ s2.c.rx = rx2 ∧ s2.h = ⟨none, none, none, v0⟩ ∧ s2.c.wb = wb1 ∧
            s2.c.tx = s1.c.tx ∧ s2.c.opened = s1.c.opened ∧
            s2.c.ks.server = ⟨trafficState S (serverHandshakeTraffic S (cfg.psk.map (·.1)) dhe (helloMsg S cfg p ++ sh)),
              helloMsg S cfg p ++ sh⟩ ∧
            s2.c.ks.client.st = trafficState S (clientHandshakeTraffic S (cfg.psk.map (·.1)) dhe (helloMsg S cfg p ++ sh)) ∧
            s2.c.ks.shared.secret = Spec.deriveSecret S (Spec.handshakeSecret S (cfg.psk.map (·.1)) dhe) "derived" [] := by
          simp only [Prod.mk.injEq] at c6
          rw [c6.2, ← hs1]
          exact ⟨rfl, rfl, rfl, rfl, rfl, rfl, rfl, rfl, rfl⟩
        have hr : r = .ok .serverVerify := by simp only [Prod.mk.injEq] at c6; exact c6.1
        subst hr
        obtain ⟨g1, g2, g3, g4, g5, g6, g7, g8, g9⟩ := hs2
        rw [openLoop_step S cfg p (by simp) hx] at hopen
        have hrec : Receiving S (serverHandshakeTraffic S (cfg.psk.map (·.1)) dhe (helloMsg S cfg p ++ sh)) 0
            ⟨helloMsg S cfg p ++ sh, none, v0, .waiting⟩ s2 := by
          refine ⟨by rw [g1]; exact c1, by rw [g1]; exact c2, by rw [g2]; exact c4, g7, ?_, by rw [g4]; exact a4, ?_, ?_, ?_⟩
          · rw [g3]
            exact ⟨rfl, rfl, rfl, rfl, fun x hx => by (cases hx), fun hx => by (cases hx), fun x hx => by (cases hx)⟩
          · rw [g4, a5]; have := hroom.certificate; simp only; omega
          · rw [g5, ← hs1]; exact a6
          · rw [g8]; exact (by decide : 0 + 1 < 2 ^ 64)
        have hb2 : s2.c.rx.bytes = rest := by rw [g2, c5]
        have hcap2 : s2.c.rr.buf.length = c.rr.buf.length := by rw [g1, c3, hcap1]
        have hlog2 : s2.c.tx.log = c.tx.log ++ sentRecords [plaintextRecord 22 [3, 1] (helloMsg S cfg p)] := by
          rw [g5]; exact hlog1
        have hop2 : s2.c.opened = false := by rw [g6]; exact hop1
        obtain ⟨g, left, k1, k2⟩ := flights_tell S hS cfg p _ (c.rx.size + 6) 0 _ s2 (by rw [hb2]; omega) rfl hrec
        rw [hb2, hcap2] at k1
        rw [hb2] at k2
        generalize hy : openLoop S cfg p (c.rx.size + 6) .serverVerify s2 = y at k2 hopen
        rw [hopen]
        clear hopen
        cases g with
        | error e =>
          obtain ⟨z, z1, z2, z3, z4⟩ := k2
          refine ⟨_, .flightError v0 t hdr body rest sh dhe left e hn b1 b3 k1, ?_⟩
          obtain ⟨r, s3⟩ := y
          simp only at z1 z3 z4
          subst z1
          exact ⟨z, rfl, z2, by simp only [afterLoop, z3]; exact hlog2, by simp only [afterLoop, z4]; exact hop2⟩
        | refused e =>
          obtain ⟨z, z1, z2, z3, z4⟩ := k2
          refine ⟨_, .flightRefused v0 t hdr body rest sh dhe left e hn b1 b3 k1, ?_⟩
          obtain ⟨r, s3⟩ := y
          simp only at z1 z3 z4
          subst z1
          refine ⟨z, alertsOf z, rfl, z2, told_alertsOf z, ?_, by simp only [afterLoop, z4]; exact hop2⟩
          simp only [afterLoop, z3, hlog2]
          simp [sentRecords]
        | abort =>
          obtain ⟨z1, z3⟩ := k2
          refine ⟨_, .flightAbort v0 t hdr body rest sh dhe left hn b1 b3 k1, ?_⟩
          obtain ⟨r, s3⟩ := y
          simp only at z1 z3
          subst z1
          exact ⟨rfl, by simp only [afterLoop, z3]; exact hlog2⟩
        | ok f =>
          obtain ⟨s3, seq', fuel', z1, z2, z3, z4, z5, z6⟩ := k2
          obtain ⟨fu, rfl⟩ : ∃ fu, fuel' = fu + 4 := ⟨fuel' - 4, by omega⟩
          obtain ⟨r, q1, q2⟩ := reply_tells S hS cfg p s3 (cfg.psk.map (·.1)) dhe
            (clientHandshakeTraffic S (cfg.psk.map (·.1)) dhe (helloMsg S cfg p ++ sh)) _ f (fuel := fu) z3 z4
            (by rw [z5.client, g8]) (by rw [z5.shared, g9]) (by rw [z5.wb, g4, a5]; exact hroom)
          rw [← z1] at q2
          have hlog3 : s3.c.tx.log = c.tx.log ++ sentRecords [plaintextRecord 22 [3, 1] (helloMsg S cfg p)] := by
            rw [z5.tx]; exact hlog2
          obtain ⟨x1, x2⟩ := y
          cases r with
          | done ms tr =>
            obtain ⟨w1, w2, w3, w4, w5⟩ := q2
            simp only at w1 w2 w3 w4 w5
            subst w1
            refine ⟨_, .opened v0 t hdr body rest sh dhe left _ tr f ms hn b1 b3 k1 q1 rfl, rfl, rfl, ?_, ?_, w4, ?_⟩
            · simp only [afterLoop, w2, hlog3]
              simp [sentRecords]
            · simp only [afterLoop, w3, z6]
            · simp only [afterLoop, w5]
          | error ms e =>
            obtain ⟨w1, w2, w3⟩ := q2
            simp only at w1 w2 w3
            subst w1
            refine ⟨_, .replyError v0 t hdr body rest sh dhe left _ f ms e hn b1 b3 k1 q1 rfl, e, rfl, rfl, ?_, ?_⟩
            · simp only [afterLoop, w2, hlog3]
              simp [sentRecords]
            · simp only [afterLoop, w3, z5.opened, hop2]
          | abort ms =>
            obtain ⟨w1, w2⟩ := q2
            simp only at w1 w2
            subst w1
            refine ⟨_, .replyAbort v0 t hdr body rest sh dhe left _ f ms hn b1 b3 k1 q1 rfl, rfl, ?_⟩
            simp only [afterLoop, w2, hlog3]
            simp [sentRecords]
  · refine ⟨_, .badName e hn, ?_⟩
    rw [hopen]
    exact ⟨e, rfl, rfl, by simp [sentRecords], hf.closed⟩
  · refine ⟨_, .nameAbort hn, ?_⟩
    rw [hopen]
    exact ⟨rfl, by simp [sentRecords]⟩

end ETls
