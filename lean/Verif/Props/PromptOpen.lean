import Verif.Props.Prompt
import Verif.Props.OpenUnique

/-! # `open` takes no more than it needs (C140)

The handshake ends with the record that holds the server's Finished: `open` has taken whole records up to that one, and
does the same whatever comes after it, in particular if nothing does. -/

namespace ETls

open Spec

variable (S : Suite) {V : Type}

theorem framed_local {cap : Nat} {input hdr body rest : Bytes} {t : UInt8} (h : Framed cap input (.record t hdr body rest)) :
    IsRecord (hdr ++ body) ∧ input = hdr ++ body ++ rest ∧
      ∀ rest2, Framed cap (hdr ++ body ++ rest2) (.record t hdr body rest2) := by
  cases h with
  | record _ v w _ _ ht hn hc => exact ⟨⟨t, v, w, body, hn, rfl⟩, rfl, fun rest2 => .record t v w body rest2 ht hn hc⟩

/-- What follows the record with the Finished does not matter. -/
theorem flights_local {p : Provider V} {secret : Bytes} {cap seq : Nat} {input left : Bytes} {f : Flight V} {g : Got V}
    (h : Flights S p secret cap seq input f g left) : ∀ f1, g = .ok f1 →
    ∃ ts : List Bytes, ts ≠ [] ∧ (∀ t ∈ ts, IsRecord t) ∧ input = ts.flatten ++ left ∧
      ∀ rest, Flights S p secret cap seq (ts.flatten ++ rest) f (.ok f1) rest := by
  induction h with
  | fault => intro f1 h; cases h
  | stop seq seq' input f t hdr body rest g hf hr hg => exact fun f1 h => absurd h (hg f1)
  | last seq seq' input f f2 t hdr body rest hf hr hw =>
    intro f1 h
    cases h
    obtain ⟨a, b, c⟩ := framed_local hf
    exact ⟨[hdr ++ body], by simp, by simpa using a, by simpa using b,
      fun rest => by simpa using Flights.last seq seq' _ f f2 t hdr body rest (c rest) hr hw⟩
  | more seq seq' input f f2 t hdr body rest left g hf hr hw hm ih =>
    intro f1 h
    obtain ⟨ts, _, d, e, k⟩ := ih f1 h
    obtain ⟨a, b, c⟩ := framed_local hf
    refine ⟨(hdr ++ body) :: ts, by simp, ?_, by rw [b, e]; simp, fun rest => ?_⟩
    · intro x hx
      rcases List.mem_cons.1 hx with rfl | hx
      · exact a
      · exact d x hx
    · simpa using Flights.more seq seq' _ f f2 t hdr body _ rest _ (c (ts.flatten ++ rest)) hr hw (k rest)

/-- The same of the whole handshake. -/
theorem opens_local {p : Provider V} {v : V} {name psk : Option Bytes} {hello input : Bytes} {cap : Nat} {sent : List Bytes}
    {dhe t left : Bytes} (h : Opens S p v name psk hello cap input (.opened sent dhe t left)) :
    ∃ ts : List Bytes, 2 ≤ ts.length ∧ (∀ t ∈ ts, IsRecord t) ∧ input = ts.flatten ++ left ∧
      ∀ rest, Opens S p v name psk hello cap (ts.flatten ++ rest) (.opened sent dhe t rest) := by
  cases h with
  | opened v0 ty hdr body rest sh _ _ secret _ f ms hn hf hh hs hr hc =>
    obtain ⟨a, b, c⟩ := framed_local hf
    obtain ⟨ts, ne, d, e, k⟩ := flights_local S hs f rfl
    refine ⟨(hdr ++ body) :: ts, ?_, ?_, by rw [b, e]; simp, fun rest => ?_⟩
    · have := List.length_pos_iff.2 ne
      simp only [List.length_cons]
      omega
    · intro x hx
      rcases List.mem_cons.1 hx with rfl | hx
      · exact a
      · exact d x hx
    · have := Opens.opened (name := name) (v := v) v0 ty hdr body _ sh dhe rest secret t f ms hn (c (ts.flatten ++ rest)) hh
        (k rest) hr hc
      simpa using this

/-- C140 for `open`: if it succeeds on a new connection, it has taken whole records `ts` from the transport, at least two.
On any new connection with buffers of the same sizes whose stream begins with these records, however it goes on and
whatever the chunks, it succeeds too, leaves what follows, derives the same keys and sends the same. -/
theorem C140_open (hS : S.Lawful) (cfg : Config) (p : Provider V) (v : V) {c : Conn} (hf : c.Fresh S) (hclean : c.rx.Clean)
    (hrel : Reliable c.tx) (hroom : Roomy S cfg p c.wb.buffer.length) (h : (Conn.open_ S cfg p v c).1 = .ok ()) :
    ∃ (ts : List Bytes) (evs : List OutEv), 2 ≤ ts.length ∧ (∀ t ∈ ts, IsRecord t) ∧
      c.rx.bytes = ts.flatten ++ (Conn.open_ S cfg p v c).2.rx.bytes ∧
      (Conn.open_ S cfg p v c).2.tx.log = c.tx.log ++ evs ∧
      ∀ (c2 : Conn) (rest : Bytes), c2.Fresh S → c2.rx.Clean → Reliable c2.tx → c2.rr.buf.length = c.rr.buf.length →
        c2.wb.buffer.length = c.wb.buffer.length → c2.rx.bytes = ts.flatten ++ rest →
        (Conn.open_ S cfg p v c2).1 = .ok () ∧ (Conn.open_ S cfg p v c2).2.opened = true ∧
        (Conn.open_ S cfg p v c2).2.rx.bytes = rest ∧
        (Conn.open_ S cfg p v c2).2.tx.log = c2.tx.log ++ evs ∧
        (Conn.open_ S cfg p v c2).2.ks.client.st = (Conn.open_ S cfg p v c).2.ks.client.st ∧
        (Conn.open_ S cfg p v c2).2.ks.server.st = (Conn.open_ S cfg p v c).2.ks.server.st := by
  obtain ⟨sent, dhe, t, left, ho⟩ := (C77_success_iff S hS cfg p v hf hclean hrel hroom).1 h
  obtain ⟨-, -, a2, a3, a4, a5⟩ := C77_exact S hS cfg p v hf hclean hrel hroom ho
  obtain ⟨ts, b1, b2, b3, b4⟩ := opens_local S ho
  refine ⟨ts, _, b1, b2, by rw [a3]; exact b3, a2, fun c2 rest hf2 hcl2 hrel2 hrb hwb hrx => ?_⟩
  have ho2 := b4 rest
  rw [← hrx, ← hrb] at ho2
  obtain ⟨d1, d2, d3, d4, d5, d6⟩ := C77_exact S hS cfg p v hf2 hcl2 hrel2 (by rw [hwb]; exact hroom) ho2
  exact ⟨d1, d2, d4, d3, d5.trans a4.symm, d6.trans a5.symm⟩

/-! ## Examples -/

-- C140_open: the smallest successful handshake; it is also one if any bytes follow, here three
set_option maxRecDepth 10000 in
example : ∃ ts : List Bytes, 2 ≤ ts.length ∧ (∀ t ∈ ts, IsRecord t) ∧
    (exNew 400 [.data (exServer exCfg exSH exMin)]).rx.bytes =
      ts.flatten ++ (Conn.open_ toySuite exCfg exProv () (exNew 400 [.data (exServer exCfg exSH exMin)])).2.rx.bytes := by
  obtain ⟨ts, evs, h1, h2, h3, -⟩ := C140_open toySuite toySuite_lawful exCfg exProv ()
    (c := exNew 400 [.data (exServer exCfg exSH exMin)])
    (exNew_fresh _ _ (by decide)) (exClean (by decide +kernel)) (by intro a ha; cases ha)
    (by rw [exNew_room]; exact exRoomy) exMin_ok
  exact ⟨ts, h1, h2, h3⟩

set_option maxRecDepth 20000 in
example : (Conn.open_ toySuite exCfg exProv () (exNew 400 [.data (exServer exCfg exSH exMin)])).2.rx.bytes = [] ∧
    (Conn.open_ toySuite exCfg exProv () (exNew 400 [.data (exServer exCfg exSH exMin ++ [9, 9, 9])])).1 = .ok () ∧
    (Conn.open_ toySuite exCfg exProv () (exNew 400 [.data (exServer exCfg exSH exMin ++ [9, 9, 9])])).2.rx.bytes = [9, 9, 9] := by
  decide +kernel

end ETls
