import Verif.Props.OpenStream
import Verif.Props.Grammar

/-! # C77: what `Opens` says is unambiguous -/

namespace ETls.Spec

variable (S : Suite) {V : Type}

theorem framed_same {cap : Nat} {input : Bytes} {a b : Frame} (h : Framed cap input a) (h' : Framed cap input b) : a = b := by
  have hshort : ∀ (t v w : UInt8) (n : Nat) (rest : Bytes), ¬ (header t v w n ++ rest).length < 5 := by
    intro t v w n rest h
    simp [header, u16] at h
    omega
  generalize hin : input = input' at h'
  cases h with
  | end_ _ h =>
    subst hin
    cases h' with
    | end_ => rfl
    | unknown => exact absurd h (hshort _ _ _ _ _)
    | tooLarge => exact absurd h (hshort _ _ _ _ _)
    | truncated => exact absurd h (hshort _ _ _ _ _)
    | record t v w body rest => rw [List.append_assoc] at h; exact absurd h (hshort _ _ _ _ _)
  | unknown t v w n rest ht hn =>
    cases h' with
    | end_ _ h => subst hin; exact absurd h (hshort _ _ _ _ _)
    | unknown => rfl
    | tooLarge t' v' w' n' rest' ht' hn' => obtain ⟨rfl, _⟩ := header_injective hn hn' hin; exact absurd ht' ht
    | truncated t' v' w' n' rest' ht' hn' => obtain ⟨rfl, _⟩ := header_injective hn hn' hin; exact absurd ht' ht
    | record t' v' w' body rest' ht' hn' =>
      rw [List.append_assoc] at hin
      obtain ⟨rfl, _⟩ := header_injective hn hn' hin
      exact absurd ht' ht
  | tooLarge t v w n rest ht hn hc =>
    cases h' with
    | end_ _ h => subst hin; exact absurd h (hshort _ _ _ _ _)
    | unknown t' v' w' n' rest' ht' hn' => obtain ⟨rfl, _⟩ := header_injective hn hn' hin; exact absurd ht ht'
    | tooLarge => rfl
    | truncated t' v' w' n' rest' ht' hn' hc' => obtain ⟨_, _, _, rfl, _⟩ := header_injective hn hn' hin; omega
    | record t' v' w' body rest' ht' hn' hc' =>
      rw [List.append_assoc] at hin
      obtain ⟨_, _, _, rfl, _⟩ := header_injective hn hn' hin
      omega
  | truncated t v w n rest ht hn hc hr =>
    cases h' with
    | end_ _ h => subst hin; exact absurd h (hshort _ _ _ _ _)
    | unknown t' v' w' n' rest' ht' hn' => obtain ⟨rfl, _⟩ := header_injective hn hn' hin; exact absurd ht ht'
    | tooLarge t' v' w' n' rest' ht' hn' hc' => obtain ⟨_, _, _, rfl, _⟩ := header_injective hn hn' hin; omega
    | truncated => rfl
    | record t' v' w' body rest' ht' hn' hc' =>
      rw [List.append_assoc] at hin
      obtain ⟨_, _, _, rfl, rfl⟩ := header_injective hn hn' hin
      simp at hr
      omega
  | record t v w body rest ht hn hc =>
    rw [List.append_assoc] at hin
    cases h' with
    | end_ _ h => subst hin; exact absurd h (hshort _ _ _ _ _)
    | unknown t' v' w' n' rest' ht' hn' => obtain ⟨rfl, _⟩ := header_injective hn hn' hin; exact absurd ht ht'
    | tooLarge t' v' w' n' rest' ht' hn' hc' => obtain ⟨_, _, _, rfl, _⟩ := header_injective hn hn' hin; omega
    | truncated t' v' w' n' rest' ht' hn' hc' hr' =>
      obtain ⟨_, _, _, rfl, rfl⟩ := header_injective hn hn' hin
      simp at hr'
      omega
    | record t' v' w' body' rest' ht' hn' hc' =>
      rw [List.append_assoc] at hin
      obtain ⟨rfl, rfl, rfl, hl, h⟩ := header_injective hn hn' hin
      obtain ⟨rfl, rfl⟩ := List.append_inj h hl
      rfl

theorem alertRead_same {bs : Bytes} {a b : Res TlsError (AlertLevel × AlertDescription)} (h : AlertRead bs a)
    (h' : AlertRead bs b) : a = b := by
  cases h with
  | ok l d x y rest hl hd => cases h' with
    | ok l' d' _ _ _ hl' hd' =>
      have h1 := C04_alert_level.accept _ _ hl
      have h2 := C04_alert_level.accept _ _ hl'
      have h3 := C04_alert_description.accept _ _ hd
      have h4 := C04_alert_description.accept _ _ hd'
      rw [h1] at h2
      rw [h3] at h4
      cases h2
      cases h4
      rfl
    | unknown _ _ _ hx => exact absurd ⟨⟨l, hl⟩, ⟨d, hd⟩⟩ hx
    | short _ hx => simp at hx; omega
  | unknown x y rest hx => cases h' with
    | ok l d _ _ _ hl hd => exact absurd ⟨⟨l, hl⟩, ⟨d, hd⟩⟩ hx
    | unknown => rfl
    | short _ hx => simp at hx; omega
  | short _ hx => cases h' with
    | ok => simp at hx; omega
    | unknown => simp at hx; omega
    | short => rfl

theorem namedGroups_lt {c : NamedGroup} {n : Nat} (h : (c, n) ∈ namedGroups) : n < 65536 := by
  simp only [namedGroups, List.mem_cons, Prod.mk.injEq, List.not_mem_nil, or_false] at h
  omega

/-- The key share of a ServerHello is determined. -/
theorem keyShare_same {r : RawMsg} {a b : Bytes} (h : KeyShareOf r a) (h' : KeyShareOf r b) : a = b := by
  obtain ⟨v, rnd, sid, cs, comp, pre, group, g, tl, post, rfl, h1, h2, h3⟩ := h
  obtain ⟨v', rnd', sid', cs', comp', pre', group', g', tl', post', e, h1', h2', h3'⟩ := h'
  simp only [RawMsg.serverHello.injEq] at e
  obtain ⟨_, _, _, _, _, e⟩ := e
  have key : ∀ (p q : List RawExt) {x y : RawExt} {s t : List RawExt}, (∀ e ∈ p, e.ty ≠ 51) → (∀ e ∈ q, e.ty ≠ 51) →
      x.ty = 51 → y.ty = 51 → p ++ x :: s = q ++ y :: t → x = y := by
    intro p
    induction p with
    | nil =>
      intro q x y s t hp hq hx hy h
      cases q with
      | nil => simp at h; exact h.1
      | cons z q => simp at h; exact absurd (h.1 ▸ hx) (hq z (by simp))
    | cons z p ih =>
      intro q x y s t hp hq hx hy h
      cases q with
      | nil => simp at h; exact absurd (h.1 ▸ hy) (hp z (by simp))
      | cons w q =>
        simp at h
        exact ih q (fun e he => hp e (by simp [he])) (fun e he => hq e (by simp [he])) hx hy h.2
  have := key pre pre' h3 h3' rfl rfl e
  simp only [RawExt.mk.injEq, true_and] at this
  obtain ⟨_, this⟩ := be16_app (namedGroups_lt h1) (namedGroups_lt h1') this
  exact (vec16_app h2 h2' this).1

theorem helloRecord_same {secret body : Bytes} {t : UInt8} {a b : HelloGot} (h : HelloRecord S secret t body a)
    (h' : HelloRecord S secret t body b) : a = b := by
  cases h with
  | invalid => cases h'; rfl
  | changeCipherSpec => cases h'; rfl
  | data => cases h'; rfl
  | alert _ l d ha => cases h' with
    | alert _ l' d' ha' => cases alertRead_same ha ha'; rfl
    | badAlert _ e ha' => cases alertRead_same ha ha'
  | badAlert _ e ha => cases h' with
    | alert _ l' d' ha' => cases alertRead_same ha ha'
    | badAlert _ e ha' => cases alertRead_same ha ha'; rfl
  | unreadable _ hb => cases h' with
    | unreadable => rfl
    | other r rest _ hb' => exact absurd hb' (hb _ _)
    | noShare r rest _ hb' => exact absurd hb' (hb _ _)
    | serverHello r sh rest share dhe hb' => exact absurd hb' (hb _ _)
  | other r rest _ hb ht => cases h' with
    | unreadable _ hb' => exact absurd hb (hb' _ _)
    | other => rfl
    | noShare r' rest' _ hb' ht' => obtain ⟨rfl, _⟩ := begins_same hb hb'; exact absurd ht' ht
    | serverHello r' sh rest' share dhe hb' hs =>
      obtain ⟨rfl, _⟩ := begins_same hb hb'
      obtain ⟨_, _, _, _, _, _, _, _, _, _, rfl, _⟩ := hs
      exact absurd rfl ht
  | noShare r rest _ hb ht hs => cases h' with
    | unreadable _ hb' => exact absurd hb (hb' _ _)
    | other r' rest' _ hb' ht' => obtain ⟨rfl, _⟩ := begins_same hb hb'; exact absurd ht ht'
    | noShare => rfl
    | serverHello r' sh rest' share dhe hb' hs' hd =>
      obtain ⟨rfl, _⟩ := begins_same hb hb'
      rw [hs share hs'] at hd
      cases hd
  | serverHello r sh rest share dhe hb hs hd =>
    generalize hbody : sh ++ rest = body at h'
    cases h' with
    | unreadable _ hb' => subst hbody; exact absurd hb (hb' _ _)
    | other r' rest' _ hb' ht' =>
      subst hbody
      obtain ⟨rfl, _⟩ := begins_same hb hb'
      obtain ⟨_, _, _, _, _, _, _, _, _, _, rfl, _⟩ := hs
      exact absurd rfl ht'
    | noShare r' rest' _ hb' ht' hs' =>
      subst hbody
      obtain ⟨rfl, _⟩ := begins_same hb hb'
      rw [hs' share hs] at hd
      cases hd
    | serverHello r' sh' rest' share' dhe' hb' hs' hd' =>
      rw [hbody] at hb
      obtain ⟨rfl, rfl⟩ := begins_same hb hb'
      obtain rfl := List.append_cancel_right hbody
      obtain rfl := keyShare_same hs hs'
      rw [hd] at hd'
      cases hd'
      rfl

theorem hears_same {p : Provider V} {secret m : Bytes} {f : Flight V} {r : RawMsg} {x y : Res TlsError (Flight V)}
    (h : Hears S p secret f m r x) (h' : Hears S p secret f m r y) : x = y := by
  have hun : ∀ {r : RawMsg}, (r.type = 2 ∨ r.type = 4) → Hears S p secret f m r y → y = .err .invalidHandshake := by
    intro r hr h
    cases h with
    | unexpected => rfl
    | _ => simp [RawMsg.type] at hr
  cases h with
  | unexpected _ hr => exact (hun hr h').symm
  | extensions xs => cases h' with
    | extensions => rfl
    | unexpected _ hr => simp [RawMsg.type] at hr
  | uncheckedCertificate ctx es hv => cases h' with
    | uncheckedCertificate => rfl
    | certificate _ _ ops hv' => rw [hv] at hv'; cases hv'
    | unexpected _ hr => simp [RawMsg.type] at hr
  | certificate ctx es ops hv => cases h' with
    | uncheckedCertificate _ _ hv' => rw [hv] at hv'; cases hv'
    | certificate _ _ ops' hv' => rw [hv] at hv'; cases hv'; rfl
    | unexpected _ hr => simp [RawMsg.type] at hr
  | uncheckedSignature s sig hv => cases h' with
    | uncheckedSignature => rfl
    | signature _ _ _ ops hv' => rw [hv] at hv'; cases hv'
    | unexpected _ hr => simp [RawMsg.type] at hr
  | signature s sig x ops hv hx => cases h' with
    | uncheckedSignature _ _ hv' => rw [hv] at hv'; cases hv'
    | signature _ _ x' ops' hv' hx' =>
      rw [hv] at hv'
      cases hv'
      have h1 := C04_signature_scheme.accept _ _ hx
      rw [C04_signature_scheme.accept _ _ hx'] at h1
      cases h1
      rfl
    | unexpected _ hr => simp [RawMsg.type] at hr
  | request ctx xs => cases h' with
    | request => rfl
    | unexpected _ hr => simp [RawMsg.type] at hr
  | forged vd hv => cases h' with
    | forged => rfl
    | finished _ hv' => exact absurd hv' hv
    | finishedRequested _ hv' => exact absurd hv' hv
    | unexpected _ hr => simp [RawMsg.type] at hr
  | finished vd hv hq => cases h' with
    | forged _ hv' => exact absurd hv hv'
    | finished => rfl
    | finishedRequested _ _ hq' => exact absurd hq hq'
    | unexpected _ hr => simp [RawMsg.type] at hr
  | finishedRequested vd hv hq => cases h' with
    | forged _ hv' => exact absurd hv hv'
    | finished _ _ hq' => exact absurd hq' hq
    | finishedRequested => rfl
    | unexpected _ hr => simp [RawMsg.type] at hr

theorem msgs_same {p : Provider V} {secret bytes : Bytes} {f : Flight V} {x y : Got V}
    (h : FlightMsgs S p secret bytes f x) (h' : FlightMsgs S p secret bytes f y) : x = y := by
  have hnil : ∀ {r : RawMsg} {rest : Bytes}, ¬ Begins S.hashLen r rest [] := by
    rintro r rest ⟨_, _, n, _, h⟩
    simp at h
  induction h generalizing y with
  | done f =>
    generalize hb : ([] : Bytes) = bytes at h'
    cases h' with
    | done => rfl
    | next r m rest _ f1 g hb' => rw [← hb] at hb'; exact absurd hb' hnil
    | stop r m rest _ x hb' => rw [← hb] at hb'; exact absurd hb' hnil
    | unreadable _ _ hne => exact absurd hb.symm hne
  | next r m rest f f1 g hb hh hr ih =>
    generalize hbb : m ++ rest = bytes at h'
    cases h' with
    | done => rw [hbb] at hb; exact absurd hb hnil
    | next r' m' rest' _ f1' g' hb' hh' hr' =>
      rw [hbb] at hb
      obtain ⟨rfl, rfl⟩ := begins_same hb hb'
      obtain rfl := List.append_cancel_right hbb
      cases hears_same S hh hh'
      exact ih hr'
    | stop r' m' rest' _ x hb' hh' hx =>
      rw [hbb] at hb
      obtain ⟨rfl, rfl⟩ := begins_same hb hb'
      obtain rfl := List.append_cancel_right hbb
      exact absurd (hears_same S hh hh').symm (hx _)
    | unreadable _ _ _ hb' => rw [hbb] at hb; exact absurd hb (hb' _ _)
  | stop r m rest f x hb hh hx =>
    generalize hbb : m ++ rest = bytes at h'
    cases h' with
    | done => rw [hbb] at hb; exact absurd hb hnil
    | next r' m' rest' _ f1' g' hb' hh' hr' =>
      rw [hbb] at hb
      obtain ⟨rfl, rfl⟩ := begins_same hb hb'
      obtain rfl := List.append_cancel_right hbb
      exact absurd (hears_same S hh hh') (hx _)
    | stop r' m' rest' _ x hb' hh' hx =>
      rw [hbb] at hb
      obtain ⟨rfl, rfl⟩ := begins_same hb hb'
      obtain rfl := List.append_cancel_right hbb
      rw [hears_same S hh hh']
    | unreadable _ _ _ hb' => rw [hbb] at hb; exact absurd hb (hb' _ _)
  | unreadable bytes f hne hb =>
    cases h' with
    | done => exact absurd rfl hne
    | next r' m' rest' _ f1' g' hb' hh' hr' => exact absurd hb' (hb _ _)
    | stop r' m' rest' _ x hb' hh' hx => exact absurd hb' (hb _ _)
    | unreadable => rfl

/-- The content of an inner plaintext with a content type. -/
inductive Content (p : Provider V) (secret : Bytes) (f : Flight V) : UInt8 → Bytes → Got V → Prop where
  | data (content : Bytes) : Content p secret f 23 content (.refused (some .invalidRecord))
  | handshake (content : Bytes) (g : Got V) (hm : FlightMsgs S p secret content f g) : Content p secret f 22 content g
  | alert (content : Bytes) (a : AlertLevel × AlertDescription) (ha : AlertRead content (.ok a)) :
      Content p secret f 21 content (.refused (some .invalidRecord))
  | badAlert (content : Bytes) (e : TlsError) (ha : AlertRead content (.err e)) : Content p secret f 21 content (.refused (some e))
  | changeCipherSpec (content : Bytes) : Content p secret f 20 content (.refused (some .unimplemented))
  | unknown (t : UInt8) (content : Bytes) (ht : ¬ Known contentTypes t.toNat) :
      Content p secret f t content (.refused (some .invalidRecord))

theorem inner_content {p : Provider V} {secret pt : Bytes} {f : Flight V} {g : Got V} (h : FlightInner S p secret f pt g) :
    (pt = [] ∧ g = .abort) ∨ (∃ n, 0 < n ∧ pt = List.replicate n 0 ∧ g = .refused (some .unimplemented)) ∨
    ∃ x : Fragment, x.type ≠ 0 ∧ pt = x.inner ∧ Content S p secret f x.type x.content g := by
  cases h with
  | empty => exact .inl ⟨rfl, rfl⟩
  | zeros n hn => exact .inr (.inl ⟨n, hn, rfl, rfl⟩)
  | data c n => exact .inr (.inr ⟨⟨23, c, n⟩, by simp, rfl, .data c⟩)
  | handshake c n g hm => exact .inr (.inr ⟨⟨22, c, n⟩, by simp, rfl, .handshake c g hm⟩)
  | alert c n a ha => exact .inr (.inr ⟨⟨21, c, n⟩, by simp, rfl, .alert c a ha⟩)
  | badAlert c n e ha => exact .inr (.inr ⟨⟨21, c, n⟩, by simp, rfl, .badAlert c e ha⟩)
  | changeCipherSpec c n => exact .inr (.inr ⟨⟨20, c, n⟩, by simp, rfl, .changeCipherSpec c⟩)
  | unknown x ht =>
    refine .inr (.inr ⟨x, ?_, rfl, .unknown _ _ ht⟩)
    intro h0
    exact ht ((known_contentType _).2 (.inl h0))

theorem content_same {p : Provider V} {secret c : Bytes} {f : Flight V} {t : UInt8} {x y : Got V}
    (h : Content S p secret f t c x) (h' : Content S p secret f t c y) : x = y := by
  have hk : ∀ {t : UInt8}, ¬ Known contentTypes t.toNat → t ≠ 20 ∧ t ≠ 21 ∧ t ≠ 22 ∧ t ≠ 23 := by
    intro t ht
    refine ⟨?_, ?_, ?_, ?_⟩ <;> intro h <;> exact ht ((known_contentType t).2 (by simp [h]))
  cases h with
  | data => cases h' with
    | data => rfl
    | unknown _ _ ht => exact absurd rfl (hk ht).2.2.2
  | handshake _ _ hm => cases h' with
    | handshake _ _ hm' => exact msgs_same S hm hm'
    | unknown _ _ ht => exact absurd rfl (hk ht).2.2.1
  | alert _ a ha => cases h' with
    | alert => rfl
    | badAlert _ e ha' => cases alertRead_same ha ha'
    | unknown _ _ ht => exact absurd rfl (hk ht).2.1
  | badAlert _ e ha => cases h' with
    | alert _ a ha' => cases alertRead_same ha ha'
    | badAlert _ e' ha' => cases alertRead_same ha ha'; rfl
    | unknown _ _ ht => exact absurd rfl (hk ht).2.1
  | changeCipherSpec => cases h' with
    | changeCipherSpec => rfl
    | unknown _ _ ht => exact absurd rfl (hk ht).1
  | unknown _ _ ht => cases h' with
    | unknown => rfl
    | data => exact absurd rfl (hk ht).2.2.2
    | handshake => exact absurd rfl (hk ht).2.2.1
    | alert => exact absurd rfl (hk ht).2.1
    | badAlert => exact absurd rfl (hk ht).2.1
    | changeCipherSpec => exact absurd rfl (hk ht).1

theorem inner_same {p : Provider V} {secret pt : Bytes} {f : Flight V} {x y : Got V} (h : FlightInner S p secret f pt x)
    (h' : FlightInner S p secret f pt y) : x = y := by
  have hne : ∀ z : Fragment, z.inner ≠ [] := by intro z h; simp [Fragment.inner] at h
  rcases inner_content S h with ⟨rfl, rfl⟩ | ⟨n, hn, rfl, rfl⟩ | ⟨a, ha, rfl, hc⟩
  · rcases inner_content S h' with ⟨_, rfl⟩ | ⟨n, hn, e, rfl⟩ | ⟨a, ha, e, _⟩
    · rfl
    · have := congrArg List.length e; simp at this; omega
    · exact absurd e.symm (hne a)
  · rcases inner_content S h' with ⟨e, rfl⟩ | ⟨n, hn, e, rfl⟩ | ⟨a, ha, e, _⟩
    · have := congrArg List.length e; simp at this; omega
    · rfl
    · exact absurd e.symm (inner_not_zeros a ha _)
  · rcases inner_content S h' with ⟨e, rfl⟩ | ⟨n, hn, e, rfl⟩ | ⟨b, hb, e, hc'⟩
    · exact absurd e (hne a)
    · exact absurd e (inner_not_zeros a ha _)
    · obtain ⟨e1, e2⟩ := inner_injective ha hb e
      rw [e1, e2] at hc
      exact content_same S hc hc'

theorem step_same {p : Provider V} {secret hdr body : Bytes} {seq : Nat} {f : Flight V} {t : UInt8} {x y : Got V} {n k : Nat}
    (h : FlightStep S p secret seq f t hdr body x n) (h' : FlightStep S p secret seq f t hdr body y k) : x = y ∧ n = k := by
  cases h with
  | invalid => cases h'; exact ⟨rfl, rfl⟩
  | changeCipherSpec => cases h'; exact ⟨rfl, rfl⟩
  | alert _ _ a ha => cases h' with
    | alert => exact ⟨rfl, rfl⟩
    | badAlert _ _ e ha' => cases alertRead_same ha ha'
  | badAlert _ _ e ha => cases h' with
    | alert _ _ a ha' => cases alertRead_same ha ha'
    | badAlert _ _ e' ha' => cases alertRead_same ha ha'; exact ⟨rfl, rfl⟩
  | plain _ m rest r x hb hh =>
    generalize hbb : m ++ rest = body at h'
    cases h' with
    | plain _ m' rest' r' x' hb' hh' =>
      rw [hbb] at hb
      obtain ⟨rfl, rfl⟩ := begins_same hb hb'
      obtain rfl := List.append_cancel_right hbb
      exact ⟨by rw [hears_same S hh hh'], rfl⟩
    | unreadable _ _ hb' => rw [hbb] at hb; exact absurd hb (hb' _ _)
  | unreadable _ _ hb => cases h' with
    | plain _ m' rest' r' x' hb' hh' => exact absurd hb' (hb _ _)
    | unreadable => exact ⟨rfl, rfl⟩
  | forged _ _ ho => cases h' with
    | forged => exact ⟨rfl, rfl⟩
    | authentic _ _ pt f1 ho' => rw [ho] at ho'; cases ho'
    | exhausted _ _ pt f1 ho' => rw [ho] at ho'; cases ho'
    | refused _ _ pt g ho' => rw [ho] at ho'; cases ho'
  | authentic _ _ pt f1 ho hi hs => cases h' with
    | forged _ _ ho' => rw [ho] at ho'; cases ho'
    | authentic _ _ pt' f1' ho' hi' => rw [ho] at ho'; cases ho'; exact ⟨inner_same S hi hi', rfl⟩
    | exhausted _ _ pt' f1' ho' hi' hs' => omega
    | refused _ _ pt' g ho' hi' hg => rw [ho] at ho'; cases ho'; exact absurd (inner_same S hi hi').symm (hg _)
  | exhausted _ _ pt f1 ho hi hs => cases h' with
    | forged _ _ ho' => rw [ho] at ho'; cases ho'
    | authentic _ _ pt' f1' ho' hi' hs' => omega
    | exhausted => exact ⟨rfl, rfl⟩
    | refused _ _ pt' g ho' hi' hg => rw [ho] at ho'; cases ho'; exact absurd (inner_same S hi hi').symm (hg _)
  | refused _ _ pt g ho hi hg => cases h' with
    | forged _ _ ho' => rw [ho] at ho'; cases ho'
    | authentic _ _ pt' f1' ho' hi' hs' => rw [ho] at ho'; cases ho'; exact absurd (inner_same S hi hi') (hg _)
    | exhausted _ _ pt' f1' ho' hi' hs' => rw [ho] at ho'; cases ho'; exact absurd (inner_same S hi hi') (hg _)
    | refused _ _ pt' g' ho' hi' hg' => rw [ho] at ho'; cases ho'; exact ⟨inner_same S hi hi', rfl⟩

theorem flights_same {p : Provider V} {secret : Bytes} {cap seq : Nat} {input : Bytes} {f : Flight V} {x y : Got V}
    {left left' : Bytes} (h : Flights S p secret cap seq input f x left) (h' : Flights S p secret cap seq input f y left') :
    x = y ∧ left = left' := by
  induction h generalizing y left' with
  | fault seq input f e hf => cases h' with
    | fault _ _ _ e' hf' => cases framed_same hf hf'; exact ⟨rfl, rfl⟩
    | stop _ _ _ _ t hdr body rest g hf' => cases framed_same hf hf'
    | last _ _ _ _ _ t hdr body rest hf' => cases framed_same hf hf'
    | more _ _ _ _ _ t hdr body rest left g hf' => cases framed_same hf hf'
  | stop seq seq' input f t hdr body rest g hf hr hg => cases h' with
    | fault _ _ _ e' hf' => cases framed_same hf hf'
    | stop _ _ _ _ t hdr body rest g hf' hr' hg' =>
      cases framed_same hf hf'
      exact ⟨(step_same S hr hr').1, rfl⟩
    | last _ _ _ _ _ t hdr body rest hf' hr' =>
      cases framed_same hf hf'
      exact absurd (step_same S hr hr').1 (hg _)
    | more _ _ _ _ _ t hdr body rest left g hf' hr' =>
      cases framed_same hf hf'
      exact absurd (step_same S hr hr').1 (hg _)
  | last seq seq' input f f1 t hdr body rest hf hr hw => cases h' with
    | fault _ _ _ e' hf' => cases framed_same hf hf'
    | stop _ _ _ _ t hdr body rest g hf' hr' hg' =>
      cases framed_same hf hf'
      exact absurd (step_same S hr hr').1.symm (hg' _)
    | last _ _ _ _ _ t hdr body rest hf' hr' =>
      cases framed_same hf hf'
      exact ⟨(step_same S hr hr').1, rfl⟩
    | more _ _ _ _ _ t hdr body rest left g hf' hr' hw' =>
      cases framed_same hf hf'
      cases (step_same S hr hr').1
      exact absurd hw' hw
  | more seq seq' input f f1 t hdr body rest left g hf hr hw hm ih => cases h' with
    | fault _ _ _ e' hf' => cases framed_same hf hf'
    | stop _ _ _ _ t hdr body rest g hf' hr' hg' =>
      cases framed_same hf hf'
      exact absurd (step_same S hr hr').1.symm (hg' _)
    | last _ _ _ _ _ t hdr body rest hf' hr' hw' =>
      cases framed_same hf hf'
      cases (step_same S hr hr').1
      exact absurd hw hw'
    | more _ _ _ _ _ t hdr body rest left g hf' hr' hw' hm' =>
      cases framed_same hf hf'
      obtain ⟨e1, rfl⟩ := step_same S hr hr'
      cases e1
      exact ih hm'

theorem replies_same {p : Provider V} {f : Flight V} {x y : Reply} (h : Replies S p f x) (h' : Replies S p f y) : x = y := by
  have hsc : ∀ {x : SignatureScheme} {n k : Nat}, (x, n) ∈ signatureSchemes → (x, k) ∈ signatureSchemes → n = k := by
    intro x n k h h'
    rw [← C04_signature_scheme.encode_decode _ _ (C04_signature_scheme.accept _ _ h),
      ← C04_signature_scheme.encode_decode _ _ (C04_signature_scheme.accept _ _ h')]
  cases h <;> cases h' <;> simp_all
  case signed.signed h1 _ _ _ _ _ h2 _ _ => rw [hsc h1 h2]
  all_goals omega

theorem named_same {p : Provider V} {v : V} {name : Option Bytes} {x y : Res TlsError V} (h : Named p v name x)
    (h' : Named p v name y) : x = y := by
  cases h <;> cases h' <;> simp_all

/-- How `open` ends once the server's flight has ended with `g`. -/
inductive Closing (p : Provider V) (hello secret dhe left : Bytes) : Got V → OpenEnd → Prop where
  | error (e : Option TlsError) : Closing p hello secret dhe left (.error e) (.error [plaintextRecord 22 [3, 1] hello] e)
  | refused (e : Option TlsError) : Closing p hello secret dhe left (.refused e) (.refusal [plaintextRecord 22 [3, 1] hello] e)
  | abort : Closing p hello secret dhe left .abort (.abort [plaintextRecord 22 [3, 1] hello])
  | replyError (f : Flight V) (ms : List Bytes) (e : TlsError) (hr : Replies S p f (.error ms e)) :
      Closing p hello secret dhe left (.ok f) (.error (plaintextRecord 22 [3, 1] hello ::
        ciphertextRecords S (writeKey S secret) (writeIv S secret) 0 (ms.map (fun m => (22, m)) ++ [(21, [1, 0])])) (some e))
  | replyAbort (f : Flight V) (ms : List Bytes) (hr : Replies S p f (.abort ms)) :
      Closing p hello secret dhe left (.ok f) (.abort (plaintextRecord 22 [3, 1] hello ::
        handshakeRecords S (writeKey S secret) (writeIv S secret) 0 ms))
  | opened (f : Flight V) (ms : List Bytes) (tr : Bytes) (hr : Replies S p f (.done ms tr)) :
      Closing p hello secret dhe left (.ok f) (.opened (plaintextRecord 22 [3, 1] hello ::
        handshakeRecords S (writeKey S secret) (writeIv S secret) 0
          (ms ++ [finishedMsg (verifyData S secret (f.transcript ++ ms.flatten))])) dhe tr left)

theorem closing_same {p : Provider V} {hello secret dhe left : Bytes} {g : Got V} {x y : OpenEnd}
    (h : Closing S p hello secret dhe left g x) (h' : Closing S p hello secret dhe left g y) : x = y := by
  cases h with
  | error => cases h'; rfl
  | refused => cases h'; rfl
  | abort => cases h'; rfl
  | replyError f ms e hr => cases h' with
    | replyError _ ms' e' hr' => cases replies_same S hr hr'; rfl
    | replyAbort _ ms' hr' => cases replies_same S hr hr'
    | opened _ ms' tr hr' => cases replies_same S hr hr'
  | replyAbort f ms hr => cases h' with
    | replyError _ ms' e' hr' => cases replies_same S hr hr'
    | replyAbort _ ms' hr' => cases replies_same S hr hr'; rfl
    | opened _ ms' tr hr' => cases replies_same S hr hr'
  | opened f ms tr hr => cases h' with
    | replyError _ ms' e' hr' => cases replies_same S hr hr'
    | replyAbort _ ms' hr' => cases replies_same S hr hr'
    | opened _ ms' tr hr' => cases replies_same S hr hr'; rfl

/-- The cases of `Opens`, by how far it gets. -/
theorem opens_cases {p : Provider V} {v : V} {name psk : Option Bytes} {hello input : Bytes} {cap : Nat} {x : OpenEnd}
    (h : Opens S p v name psk hello cap input x) :
    (∃ e, Named p v name (.err e) ∧ x = .error [] (some e)) ∨ (Named p v name .panic ∧ x = .abort []) ∨
    ∃ v0, Named p v name (.ok v0) ∧
      ((∃ e, Framed cap input (.error e) ∧ x = .error [plaintextRecord 22 [3, 1] hello] (some e)) ∨
      ∃ t hdr body rest g, Framed cap input (.record t hdr body rest) ∧ HelloRecord S p.secret t body g ∧
        match g with
        | .error e => x = .error [plaintextRecord 22 [3, 1] hello] e
        | .ok sh dhe => ∃ g left,
          Flights S p (serverHandshakeTraffic S psk dhe (hello ++ sh)) cap 0 rest ⟨hello ++ sh, none, v0, .waiting⟩ g left ∧
          Closing S p hello (clientHandshakeTraffic S psk dhe (hello ++ sh)) dhe left g x) := by
  cases h with
  | badName e hn => exact .inl ⟨e, hn, rfl⟩
  | nameAbort hn => exact .inr (.inl ⟨hn, rfl⟩)
  | noRecord v0 e hn hf => exact .inr (.inr ⟨v0, hn, .inl ⟨e, hf, rfl⟩⟩)
  | noHello v0 t hdr body rest e hn hf hh => exact .inr (.inr ⟨v0, hn, .inr ⟨t, hdr, body, rest, _, hf, hh, rfl⟩⟩)
  | flightError v0 t hdr body rest sh dhe left e hn hf hh hs =>
    exact .inr (.inr ⟨v0, hn, .inr ⟨t, hdr, body, rest, _, hf, hh, _, left, hs, .error e⟩⟩)
  | flightRefused v0 t hdr body rest sh dhe left e hn hf hh hs =>
    exact .inr (.inr ⟨v0, hn, .inr ⟨t, hdr, body, rest, _, hf, hh, _, left, hs, .refused e⟩⟩)
  | flightAbort v0 t hdr body rest sh dhe left hn hf hh hs =>
    exact .inr (.inr ⟨v0, hn, .inr ⟨t, hdr, body, rest, _, hf, hh, _, left, hs, .abort⟩⟩)
  | replyError v0 t hdr body rest sh dhe left secret f ms e hn hf hh hs hr hc =>
    subst hc
    exact .inr (.inr ⟨v0, hn, .inr ⟨t, hdr, body, rest, _, hf, hh, _, left, hs, .replyError f ms e hr⟩⟩)
  | replyAbort v0 t hdr body rest sh dhe left secret f ms hn hf hh hs hr hc =>
    subst hc
    exact .inr (.inr ⟨v0, hn, .inr ⟨t, hdr, body, rest, _, hf, hh, _, left, hs, .replyAbort f ms hr⟩⟩)
  | opened v0 t hdr body rest sh dhe left secret tr f ms hn hf hh hs hr hc =>
    subst hc
    exact .inr (.inr ⟨v0, hn, .inr ⟨t, hdr, body, rest, _, hf, hh, _, left, hs, .opened f ms tr hr⟩⟩)

/-- **C77, unambiguous** The description leaves no choice: same bytes, same end. -/
theorem C77_deterministic {p : Provider V} {v : V} {name psk : Option Bytes} {hello input : Bytes} {cap : Nat} {x y : OpenEnd}
    (h : Opens S p v name psk hello cap input x) (h' : Opens S p v name psk hello cap input y) : x = y := by
  rcases opens_cases S h with ⟨e, hn, rfl⟩ | ⟨hn, rfl⟩ | ⟨v0, hn, h⟩
  · rcases opens_cases S h' with ⟨e', hn', rfl⟩ | ⟨hn', rfl⟩ | ⟨v0', hn', h'⟩ <;> cases named_same hn hn'
    rfl
  · rcases opens_cases S h' with ⟨e', hn', rfl⟩ | ⟨hn', rfl⟩ | ⟨v0', hn', h'⟩ <;> cases named_same hn hn'
    rfl
  · rcases opens_cases S h' with ⟨e', hn', rfl⟩ | ⟨hn', rfl⟩ | ⟨v0', hn', h'⟩ <;> cases named_same hn hn'
    rcases h with ⟨e, hf, rfl⟩ | ⟨t, hdr, body, rest, g, hf, hh, h⟩ <;>
      rcases h' with ⟨e', hf', rfl⟩ | ⟨t', hdr', body', rest', g', hf', hh', h'⟩ <;> cases framed_same hf hf'
    · rfl
    · cases helloRecord_same S hh hh'
      cases g with
      | error e => exact h.trans h'.symm
      | ok sh dhe =>
        obtain ⟨g, left, h1, h2⟩ := h
        obtain ⟨g', left', h1', h2'⟩ := h'
        obtain ⟨rfl, rfl⟩ := flights_same S h1 h1'
        exact closing_same S h2 h2'

end ETls.Spec

namespace ETls
open Spec (Opens OpenEnd C77_deterministic)

variable (S : Suite) {V : Type}

/-- **C77, exact** Whatever end the description gives is what `open` does. -/
theorem C77_exact (hS : S.Lawful) (cfg : Config) (p : Provider V) (v : V) {c : Conn} (hf : c.Fresh S) (hclean : c.rx.Clean)
    (hrel : Reliable c.tx) (hroom : Roomy S cfg p c.wb.buffer.length) {e : OpenEnd}
    (h : Opens S p v cfg.serverName (cfg.psk.map (·.1)) (helloMsg S cfg p) c.rr.buf.length c.rx.bytes e) :
    OpenAgrees S (cfg.psk.map (·.1)) c (Conn.open_ S cfg p v c).1 (Conn.open_ S cfg p v c).2 e := by
  obtain ⟨e', h1, h2⟩ := C77_open S hS cfg p v hf hclean hrel hroom
  rw [C77_deterministic S h h1]
  exact h2

/-- **C77, success** `open` succeeds if and only if the description does. -/
theorem C77_success_iff (hS : S.Lawful) (cfg : Config) (p : Provider V) (v : V) {c : Conn} (hf : c.Fresh S)
    (hclean : c.rx.Clean) (hrel : Reliable c.tx) (hroom : Roomy S cfg p c.wb.buffer.length) :
    (Conn.open_ S cfg p v c).1 = .ok () ↔ ∃ sent dhe t rest,
      Opens S p v cfg.serverName (cfg.psk.map (·.1)) (helloMsg S cfg p) c.rr.buf.length c.rx.bytes (.opened sent dhe t rest) := by
  obtain ⟨e, h1, h2⟩ := C77_open S hS cfg p v hf hclean hrel hroom
  constructor
  · intro h
    cases e with
    | opened sent dhe t rest => exact ⟨sent, dhe, t, rest, h1⟩
    | error sent z => obtain ⟨y, h3, _⟩ := h2; rw [h] at h3; cases h3
    | refusal sent z => obtain ⟨y, _, h3, _⟩ := h2; rw [h] at h3; cases h3
    | abort sent => have h3 := h2.1; rw [h] at h3; cases h3
  · rintro ⟨sent, dhe, t, rest, h⟩
    exact (C77_exact S hS cfg p v hf hclean hrel hroom h).1

/-- **C77, panic** `open` panics if and only if the description says so. -/
theorem C77_panic_iff (hS : S.Lawful) (cfg : Config) (p : Provider V) (v : V) {c : Conn} (hf : c.Fresh S)
    (hclean : c.rx.Clean) (hrel : Reliable c.tx) (hroom : Roomy S cfg p c.wb.buffer.length) :
    (Conn.open_ S cfg p v c).1 = .panic ↔ ∃ sent,
      Opens S p v cfg.serverName (cfg.psk.map (·.1)) (helloMsg S cfg p) c.rr.buf.length c.rx.bytes (.abort sent) := by
  obtain ⟨e, h1, h2⟩ := C77_open S hS cfg p v hf hclean hrel hroom
  constructor
  · intro h
    cases e with
    | opened sent dhe t rest => have h3 := h2.1; rw [h] at h3; cases h3
    | error sent z => obtain ⟨y, h3, _⟩ := h2; rw [h] at h3; cases h3
    | refusal sent z => obtain ⟨y, _, h3, _⟩ := h2; rw [h] at h3; cases h3
    | abort sent => exact ⟨sent, h1⟩
  · rintro ⟨sent, h⟩
    exact (C77_exact S hS cfg p v hf hclean hrel hroom h).1

/-! ## Examples -/

theorem exRoomy : Roomy toySuite exCfg exProv 400 where
  hello := by decide +kernel
  finished := by decide
  certificate := by decide
  ownCertificate := by intro cert h; cases h
  signature := by intro h; exact absurd rfl h

theorem exClean {bs : Bytes} (h : bs ≠ []) : Rx.Clean [.data bs] := by
  intro e he
  rw [List.mem_singleton] at he
  exact ⟨bs, h, he⟩

theorem exNew_room (n : Nat) (rx : Rx) : (exNew n rx).wb.buffer.length = n := by simp [exNew]

theorem exNew_size (n : Nat) (rx : Rx) : (exNew n rx).rr.buf.length = n := by simp [exNew, RR.new]

theorem exNew_bytes (n : Nat) (bs : Bytes) : (exNew n [.data bs]).rx.bytes = bs := by simp [exNew, Rx.bytes]

/-- What the description says of the bytes `bs` is what `open` does with them. -/
theorem exOpens {bs : Bytes} (h : bs ≠ []) {e : OpenEnd}
    (ho : Opens toySuite exProv () exCfg.serverName none (helloMsg toySuite exCfg exProv) 400 bs e) :
    OpenAgrees toySuite none (exNew 400 [.data bs]) (Conn.open_ toySuite exCfg exProv () (exNew 400 [.data bs])).1
      (Conn.open_ toySuite exCfg exProv () (exNew 400 [.data bs])).2 e :=
  C77_exact toySuite toySuite_lawful exCfg exProv () (c := exNew 400 [.data bs]) (exNew_fresh _ _ (by decide)) (exClean h)
    (by intro a ha; cases ha) (by rw [exNew_room]; exact exRoomy)
    (by rw [exNew_size, exNew_bytes]; exact ho)

-- C77_exact: a fatal alert in place of ServerHello
example : (Conn.open_ toySuite exCfg exProv () (exNew 400 [.data [21, 3, 3, 0, 2, 2, 40, 9]])).1 =
      .err (.handshakeAborted .fatal .handshakeFailure) ∧
    (Conn.open_ toySuite exCfg exProv () (exNew 400 [.data [21, 3, 3, 0, 2, 2, 40, 9]])).2.opened = false := by
  have := exOpens (bs := [21, 3, 3, 0, 2, 2, 40, 9]) (by decide) (.noHello () 21 [21, 3, 3, 0, 2] [2, 40] [9] _ (.noVerifier _ rfl)
    (.record 21 3 3 [2, 40] [9] ⟨.alert, by decide⟩ (by decide) (by decide))
    (.alert [2, 40] .fatal .handshakeFailure (.ok .fatal .handshakeFailure 2 40 [] (by decide) (by decide))))
  obtain ⟨y, h1, h2, h3, h4⟩ := this
  rw [h1, show y = _ from h2]
  exact ⟨rfl, h4⟩

-- C77_exact: a record of an unknown type
example : (Conn.open_ toySuite exCfg exProv () (exNew 400 [.data [99, 3, 3, 0, 0]])).1 = .err .invalidRecord := by
  have := exOpens (bs := [99, 3, 3, 0, 0]) (by decide) (.noRecord () _ (.noVerifier _ rfl)
    (.unknown 99 3 3 0 [] (by rintro ⟨t, ht⟩; revert ht; cases t <;> decide) (by decide)))
  obtain ⟨y, h1, h2, _⟩ := this
  rw [h1, show y = _ from h2]

-- C77_success_iff, C77_open: the smallest successful handshake
set_option maxRecDepth 10000 in
example : ∃ sent dhe t rest, Opens toySuite exProv () exCfg.serverName none (helloMsg toySuite exCfg exProv) 400
    (exServer exCfg exSH exMin) (.opened sent dhe t rest) := by
  have h := (C77_success_iff toySuite toySuite_lawful exCfg exProv () (c := exNew 400 [.data (exServer exCfg exSH exMin)])
    (exNew_fresh _ _ (by decide)) (exClean (by decide +kernel)) (by intro a ha; cases ha)
    (by rw [exNew_room]; exact exRoomy)).1 exMin_ok
  rw [exNew_size, exNew_bytes] at h
  exact h

/-- A client whose certificate is a raw public key. -/
def exRaw : Provider Unit := { exProv with clientCert := some (.rawPublicKey [1, 2]) }

-- C77_panic_iff: such a client panics when it is asked for its certificate
set_option maxRecDepth 20000 in
example : ∃ sent, Opens toySuite exRaw () exCfg.serverName none (helloMsg toySuite exCfg exRaw) 400
    (exFlight.bytes toySuite none (helloMsg toySuite exCfg exProv)) (.abort sent) := by
  have h := (C77_panic_iff toySuite toySuite_lawful exCfg exRaw () (c := exAsking) (exNew_fresh _ _ (by decide))
    (exClean (by decide +kernel)) (by intro a ha; cases ha)
    (by
      rw [exAsking, exNew_room]
      exact ⟨by decide +kernel, by decide, by decide, (by intro cert h; cases h), by intro _; decide⟩)).1 (by decide +kernel)
  rw [exAsking, exNew_size, exNew_bytes] at h
  exact h

end ETls
