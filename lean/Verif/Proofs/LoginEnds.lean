import Verif.Spec.LoginEnds
import Verif.Proofs.Strangers

/-! # Every login comes to an end -/

namespace Wamp.Spec.Stack
open RawSocket Net

/-- What holds of a connection during login: there is one handshake or one frame on its way, in one of the directions. -/
def Login (l : Link) : Prop :=
  match l.client, l.router with
  | .greeting, .greeting _ => sendHandshake ⟨l.config.format.type, l.config.size⟩ = .ok (l.upHas ++ l.up) ∧ l.downHas ++ l.down = []
  | .greeting, .accepting f a => f = l.config.format ∧ a.sessionDetails = none ∧ l.upHas ++ l.up = [] ∧ (l.downHas ++ l.down).length = 4
  | .joining j, .accepting f a => f = l.config.format ∧ a.sessionDetails = none ∧ (j.state = .helloSent ∨ j.state = .authenticateSent) ∧
      ((l.downHas ++ l.down = [] ∧ ∃ b, l.upHas ++ l.up = frame b ∧ b.length < 2 ^ 24) ∨
        (l.upHas ++ l.up = [] ∧ ∃ b, l.downHas ++ l.down = frame b ∧ b.length < 2 ^ 24 ∧ NotWelcome f b))
  | .joining j, .attached f _ => f = l.config.format ∧ (j.state = .helloSent ∨ j.state = .authenticateSent) ∧
      ∃ w b rest, f.wire.serialize (.welcome w) = .ok b ∧ b.length < 2 ^ 24 ∧ l.downHas ++ l.down = frame b ++ rest
  | .session _, .attached _ _ => True
  | .failed, _ => True
  | _, .closed => True
  | _, _ => False

/-- How far the login has come -/
def pos (l : Link) : Nat :=
  match l.client, l.router with
  | .greeting, .greeting _ => if l.upHas.length < 4 then 0 else 1
  | .greeting, .accepting _ _ => if l.downHas.length < 4 then 2 else 3
  | .joining j, .accepting _ _ => (if j.state = .helloSent then 4 else 8) +
      (if (l.upHas ++ l.up).length ≠ 0 then (if (readOne l.upHas).isNone then 0 else 1) else (if (readOne l.downHas).isNone then 2 else 3))
  | .joining j, .attached _ _ => (if j.state = .helloSent then 4 else 8) + (if (readOne l.downHas).isNone then 2 else 3)
  | _, _ => 12

theorem ended_of_pos {l : Link} (h : Login l) (hp : 12 ≤ pos l) : Ended l := by
  obtain ⟨cfg, cl, ro, up, upHas, down, downHas⟩ := l
  cases cl <;> cases ro <;> simp only [Login] at h <;> simp only [pos] at hp
  all_goals first
    | exact h.elim
    | exact .inr (.inl rfl)
    | exact .inr (.inr rfl)
    | exact .inl ⟨_, _, _, rfl, rfl⟩
    | (exfalso; repeat' split at hp
       all_goals omega)

theorem pos_of_ended {l : Link} (h : Ended l) : 12 ≤ pos l := by
  obtain ⟨cfg, cl, ro, up, upHas, down, downHas⟩ := l
  rcases h with ⟨calls, f, s, h1, h2⟩ | h | h
  · dsimp only at h1 h2; subst h1 h2; exact Nat.le_refl _
  · dsimp only at h; subst h; cases ro <;> exact Nat.le_refl _
  · dsimp only at h; subst h; cases cl <;> exact Nat.le_refl _

/-! ## Frames that have arrived in part -/

theorem readOne_more {b : Bytes} (t : Bytes) (h : (readOne b).isNone = false) : (readOne (b ++ t)).isNone = false := by
  cases hr : readOne b with
  | none => rw [hr] at h; cases h
  | some z =>
    obtain ⟨x, rest⟩ := z
    obtain ⟨hf, hd, h1, -, rfl⟩ := readOne_some hr
    rw [List.append_assoc (hd ++ x.payload), readOne_append hf h1 (rest ++ t)]
    rfl

theorem frame_length {b : Bytes} (h : b.length < 2 ^ 24) : (frame b).length = b.length + 4 := by
  obtain ⟨hd, h1, h2⟩ := frame_eq h
  obtain ⟨hd', g1, g2, -⟩ := C13_header_round_trip MSG_TYPE_WAMP b.length (frame_fits h).1 ⟨by omega, by omega⟩
  rw [h1] at g1; cases g1
  rw [h2, List.length_append]
  omega

/-- When enough bytes have arrived, there is a whole frame. -/
theorem readOne_enough {has wire rest b : Bytes} (h : has ++ wire = frame b ++ rest) (hb : b.length < 2 ^ 24) {k : Nat} (hk : 2 ^ 24 + 4 ≤ k) :
    (readOne (has ++ wire.take k)).isNone = false := by
  have hlen := frame_length hb
  have h2 : has ++ wire.take k = (has ++ wire).take (has.length + k) := by
    rw [List.take_append]
    simp
  have h3 : has ++ wire.take k = frame b ++ rest.take (has.length + k - (frame b).length) := by
    rw [h2, h, List.take_append, List.take_of_length_le (by omega)]
  rw [h3, readOne_stream hb]
  rfl

/-- A frame read from bytes that begin with one -/
theorem read_frame {has wire b rest rest' : Bytes} {x : Frame} (h : has ++ wire = frame b ++ rest) (hb : b.length < 2 ^ 24)
    (hr : readOne has = some (x, rest')) : x.payload = b ∧ rest' ++ wire = rest := by
  obtain ⟨hf, hd, h1, -, rfl⟩ := readOne_some hr
  have hall : readOne (frame b ++ rest) = some (x, rest' ++ wire) := by
    rw [← h, List.append_assoc]
    exact readOne_append hf h1 _
  rw [readOne_stream hb] at hall
  injection hall with hall
  injection hall with h3 h4
  exact ⟨by rw [← h3], h4.symm⟩

theorem frame_ne {b : Bytes} (hb : b.length < 2 ^ 24) : (frame b).length ≠ 0 := by
  rw [frame_length hb]; omega

theorem isNone_nil : (readOne []).isNone = true := rfl

theorem isNone_of_nil {has wire : Bytes} (h : has ++ wire = []) : (readOne has).isNone = true := by
  rw [(List.append_eq_nil_iff.1 h).1]; rfl

/-! ## Bytes arrive -/

theorem up_login {l : Link} (h : Login l) (k : Nat) :
    Login { l with up := l.up.drop k, upHas := l.upHas ++ l.up.take k } ∧
    pos l ≤ pos { l with up := l.up.drop k, upHas := l.upHas ++ l.up.take k } ∧
    (2 ^ 24 + 4 ≤ k → pos l % 4 = 0 → pos l < 12 → pos l < pos { l with up := l.up.drop k, upHas := l.upHas ++ l.up.take k }) := by
  obtain ⟨cfg, cl, ro, up, upHas, down, downHas⟩ := l
  have e : upHas ++ up.take k ++ up.drop k = upHas ++ up := by rw [List.append_assoc, List.take_append_drop]
  dsimp only
  refine ⟨?_, ?_, ?_⟩
  · cases cl <;> cases ro <;> simp only [Login] at h ⊢
    all_goals first
      | exact h
      | trivial
      | (simp only [e]; exact h)
  · cases cl <;> cases ro <;> simp only [Login] at h <;> simp only [pos]
    all_goals first
      | exact h.elim
      | exact Nat.le_refl _
      | skip
    · rw [List.length_append]
      repeat' split
      all_goals omega
    · simp only [e]
      refine Nat.add_le_add_left ?_ _
      split
      · cases hn : (readOne upHas).isNone
        · rw [readOne_more _ hn]
        · exact Nat.zero_le _
      · exact Nat.le_refl _
  · intro hk hp hp'
    cases cl <;> cases ro <;> simp only [Login] at h <;> simp only [pos] at hp hp' ⊢
    all_goals first
      | exact h.elim
      | (exfalso; revert hp hp'; repeat' split
         all_goals omega)
      | skip
    · obtain ⟨h4, -⟩ := handshake_length h.1
      rw [List.length_append] at h4
      rw [if_neg (c := (upHas ++ up.take k).length < 4) (by rw [List.length_append, List.length_take]; omega)]
      split at hp
      · rw [if_pos (by assumption)]; decide
      · omega
    · simp only [e] at hp ⊢
      obtain ⟨-, -, -, ⟨hD, b, hU, hb⟩ | ⟨hU, -⟩⟩ := h
      · have hne : (upHas ++ up).length ≠ 0 := by rw [hU]; exact frame_ne hb
        rw [if_pos hne] at hp ⊢
        rw [if_pos hne]
        have hread := readOne_enough (has := upHas) (wire := up) (rest := []) (by rw [hU, List.append_nil]) hb hk
        rw [hread]
        cases hn : (readOne upHas).isNone
        · rw [hn] at hp
          split at hp <;> simp at hp
        · simp
      · rw [hU] at hp
        exfalso; revert hp
        repeat' split
        all_goals simp at *

theorem down_login {l : Link} (h : Login l) (k : Nat) :
    Login { l with down := l.down.drop k, downHas := l.downHas ++ l.down.take k } ∧
    pos l ≤ pos { l with down := l.down.drop k, downHas := l.downHas ++ l.down.take k } ∧
    (2 ^ 24 + 4 ≤ k → pos l % 4 = 2 → pos l < pos { l with down := l.down.drop k, downHas := l.downHas ++ l.down.take k }) := by
  obtain ⟨cfg, cl, ro, up, upHas, down, downHas⟩ := l
  have e : downHas ++ down.take k ++ down.drop k = downHas ++ down := by rw [List.append_assoc, List.take_append_drop]
  dsimp only
  refine ⟨?_, ?_, ?_⟩
  · cases cl <;> cases ro <;> simp only [Login] at h ⊢
    all_goals first
      | exact h
      | trivial
      | (simp only [e]; exact h)
  · cases cl <;> cases ro <;> simp only [Login] at h <;> simp only [pos]
    all_goals first
      | exact h.elim
      | exact Nat.le_refl _
      | skip
    · rw [List.length_append]
      repeat' split
      all_goals omega
    · refine Nat.add_le_add_left ?_ _
      split
      · exact Nat.le_refl _
      · cases hn : (readOne downHas).isNone
        · rw [readOne_more _ hn]
        · simp only [if_true]; split <;> decide
    · refine Nat.add_le_add_left ?_ _
      cases hn : (readOne downHas).isNone
      · rw [readOne_more _ hn]
      · simp only [if_true]; split <;> decide
  · intro hk hp
    cases cl <;> cases ro <;> simp only [Login] at h <;> simp only [pos] at hp ⊢
    all_goals first
      | exact h.elim
      | (exfalso; revert hp; repeat' split
         all_goals omega)
      | skip
    · obtain ⟨-, -, -, h4⟩ := h
      rw [List.length_append] at h4
      rw [if_neg (c := (downHas ++ down.take k).length < 4) (by rw [List.length_append, List.length_take]; omega)]
      split at hp
      · rw [if_pos (by assumption)]; decide
      · omega
    · obtain ⟨-, -, -, ⟨hD, b, hU, hb⟩ | ⟨hU, b, hD, hb, -⟩⟩ := h
      · have hne : (upHas ++ up).length ≠ 0 := by rw [hU]; exact frame_ne hb
        rw [if_pos hne] at hp
        exfalso; revert hp
        repeat' split
        all_goals simp
      · rw [hU] at hp ⊢
        have hread := readOne_enough (has := downHas) (wire := down) (rest := []) (by rw [hD, List.append_nil]) hb hk
        rw [hread]
        cases hn : (readOne downHas).isNone
        · rw [hn] at hp
          split at hp <;> simp at hp
        · simp
    · obtain ⟨-, -, w, b, rest, -, hb, hD⟩ := h
      have hread := readOne_enough (has := downHas) (wire := down) hD hb hk
      rw [hread]
      cases hn : (readOne downHas).isNone
      · rw [hn] at hp
        split at hp <;> simp at hp
      · simp

/-! ## The router looks at what has arrived -/

theorem failed_login {l : Link} (h : l.client = .failed) : Login l ∧ pos l = 12 := by
  obtain ⟨cfg, cl, ro, up, upHas, down, downHas⟩ := l
  dsimp only at h; subst h
  cases ro <;> exact ⟨trivial, rfl⟩

theorem closed_login {l : Link} (h : l.router = .closed) : Login l ∧ pos l = 12 := by
  obtain ⟨cfg, cl, ro, up, upHas, down, downHas⟩ := l
  dsimp only at h; subst h
  cases cl <;> exact ⟨trivial, rfl⟩

theorem pos_le (l : Link) : pos l ≤ 12 := by
  obtain ⟨cfg, cl, ro, up, upHas, down, downHas⟩ := l
  cases cl <;> cases ro <;> simp only [pos] <;> (repeat' split) <;> decide

theorem greet_client (r : Setup) (l : Link) (sid : PyInt) : (l.greet r sid).client = l.client := by
  unfold Link.greet
  repeat' split
  all_goals rfl

theorem push_login {l : Link} (h : Login l) (out : List (Int × Message)) : Login (l.push out) ∧ pos l = pos (l.push out) := by
  obtain ⟨cfg, cl, ro, up, upHas, down, downHas⟩ := l
  cases ro
  case attached f s =>
    cases cl
    case greeting => exact h.elim
    case session => exact ⟨trivial, rfl⟩
    case failed => exact ⟨trivial, rfl⟩
    obtain ⟨h1, h2, w, b, rest, h3, h4, h5⟩ := h
    exact ⟨⟨h1, h2, w, b, _, h3, h4, by
      dsimp only [Link.push] at h5 ⊢
      rw [← List.append_assoc, h5, List.append_assoc]⟩, rfl⟩
  all_goals exact ⟨h, rfl⟩

/-- What the router writes when the login goes on is a whole frame. -/
theorem verdict_more_frame {r : Setup} {f : Format} {a a' : Acceptor} {env : AuthEnv} {data b : Bytes}
    (h : verdict r f a env data = .more a' b) : ∃ t, b = frame t ∧ t.length < 2 ^ 24 := by
  unfold verdict at h
  generalize a.receive f.wire r.crypto env data = o at h
  obtain ⟨a2, out⟩ := o
  cases out with
  | error e => cases h
  | ok z =>
    obtain ⟨t, fin⟩ := z
    cases fin with
    | false =>
      dsimp only at h
      split at h
      · cases h; exact ⟨t, rfl, by assumption⟩
      · cases h
    | true =>
      dsimp only at h
      split at h
      · cases h
      · split at h <;> cases h

theorem token_frame {f : Format} {t : Bytes} (h : Token f (frame t)) (ht : t.length < 2 ^ 24) : NotWelcome f t := by
  have hr : readOne (frame t) = some (⟨MSG_TYPE_WAMP, t⟩, []) := by
    have := readOne_stream ht []
    rwa [List.append_nil] at this
  exact (read_token (has := frame t) (wire := []) (by rw [List.append_nil]; exact h) hr).1

/-- How far a login has come when there is nothing on its way up -/
theorem pos_down {cfg : Config} {j : Joiner} {f : Format} {a : Acceptor} {up upHas down downHas : Bytes} (hU : upHas ++ up = []) :
    (if j.state = .helloSent then 4 else 8) + 2 ≤ pos ⟨cfg, .joining j, .accepting f a, up, upHas, down, downHas⟩ := by
  simp only [pos, hU]
  refine Nat.add_le_add_left ?_ _
  simp only [List.length_nil, ne_eq, not_true, if_false]
  split <;> decide

theorem serve_login {n : Stack} {c : Nat} {l : Link} (r : Setup) (hl : n.links c = some l) (h : Login l) (env : AuthEnv) :
    ∃ l', (n.serve r c l env).links c = some l' ∧ Login l' ∧ pos l ≤ pos l' ∧ (pos l % 4 = 1 → pos l < pos l') := by
  have fin : ∀ (n' : Stack) (l' : Link), pos l' = 12 → Login l' → ∃ l2, (n'.set c (some l')).links c = some l2 ∧ Login l2 ∧ pos l ≤ pos l2 ∧
      (pos l % 4 = 1 → pos l < pos l2) := by
    intro n' l' hp hl'
    have := pos_le l
    exact ⟨l', by rw [set_links, if_pos rfl], hl', by omega, by omega⟩
  have stay : (readOne l.upHas = none) → (∃ f, (∃ a, l.router = .accepting f a) ∨ ∃ s, l.router = .attached f s) →
      ∃ l', n.links c = some l' ∧ Login l' ∧ pos l ≤ pos l' ∧ (pos l % 4 = 1 → pos l < pos l') := by
    intro hr hf
    refine ⟨l, hl, h, Nat.le_refl _, fun hp => ?_⟩
    exfalso
    clear fin hl
    obtain ⟨cfg, cl, ro, up, upHas, down, downHas⟩ := l
    dsimp only at hr hf
    obtain ⟨f, ⟨a, rfl⟩ | ⟨s, rfl⟩⟩ := hf
    all_goals
      cases cl <;> simp only [pos, hr, Option.isNone_none, if_true] at hp <;> revert hp <;> (repeat' split) <;> simp
  unfold Stack.serve
  cases hro : l.router with
  | closed =>
    have := closed_login hro
    exact ⟨l, hl, h, Nat.le_refl _, by omega⟩
  | greeting sid =>
    dsimp only
    cases hcl : l.client with
    | failed =>
      have := failed_login (l := l.greet r sid) (by rw [greet_client, hcl])
      exact fin _ _ this.2 this.1
    | joining j => simp only [Login, hcl, hro] at h
    | session calls => simp only [Login, hcl, hro] at h
    | greeting =>
      simp only [set_links, if_true]
      refine ⟨_, rfl, ?_⟩
      clear fin stay hl
      obtain ⟨cfg, cl, ro, up, upHas, down, downHas⟩ := l
      dsimp only at hro hcl
      subst hro hcl
      simp only [Login] at h
      obtain ⟨h1, h2⟩ := h
      obtain ⟨h4, z, h5⟩ := handshake_length h1
      simp only [Link.greet]
      by_cases hlen : upHas.length < 4
      · rw [if_pos hlen]
        refine ⟨⟨h1, h2⟩, Nat.le_refl _, ?_⟩
        simp only [pos, if_pos hlen]
        intro hp; cases hp
      · rw [if_neg hlen]
        rw [List.length_append] at h4
        have hup : up = [] := List.eq_nil_of_length_eq_zero (by omega)
        have hhas : upHas.take 4 = upHas := List.take_of_length_le (by omega)
        have hdrop : upHas.drop 4 = [] := List.drop_eq_nil_of_le (by omega)
        rw [hup, List.append_nil] at h5
        rw [hhas, h5, hdrop]
        dsimp only
        rw [type_mod, formatOfType_type]
        dsimp only
        cases hs : sendHandshake ⟨cfg.format.type, r.size⟩ with
        | error e =>
          refine ⟨trivial, ?_, ?_⟩ <;> simp only [pos, if_neg hlen] <;> decide
        | ok b =>
          refine ⟨⟨rfl, rfl, by simp only [hup, List.append_nil], ?_⟩, ?_, ?_⟩
          · dsimp only
            rw [← List.append_assoc, h2]
            exact (handshake_length hs).1
          · simp only [pos, if_neg hlen]; split <;> decide
          · simp only [pos, if_neg hlen]; split <;> decide
  | accepting f a =>
    dsimp only
    cases hread : readOne l.upHas with
    | none => exact stay hread ⟨f, .inl ⟨a, hro⟩⟩
    | some z =>
      obtain ⟨x, rest⟩ := z
      dsimp only
      cases hcl : l.client with
      | session calls => simp only [Login, hcl, hro] at h
      | greeting =>
        simp only [Login, hcl, hro] at h
        exact (readOne_nil h.2.2.1 hread).elim
      | failed =>
        cases verdict r f a env x.payload with
        | away b => exact fin _ _ (closed_login rfl).2 (closed_login rfl).1
        | more a' b => exact fin _ _ (failed_login rfl).2 (failed_login rfl).1
        | welcome d b =>
          dsimp only
          split
          · exact fin _ _ (failed_login rfl).2 (failed_login rfl).1
          · exact fin _ _ (closed_login rfl).2 (closed_login rfl).1
      | joining j =>
        simp only [Login, hcl, hro] at h
        obtain ⟨rfl, h2, h3, ⟨hD, u, hU, hu⟩ | ⟨hU, -⟩⟩ := h
        · have hU2 := (read_frame (rest := []) (by rw [hU, List.append_nil]) hu hread).2
          have hpos : pos l = (if j.state = .helloSent then 4 else 8) + 1 := by
            simp only [pos, hcl, hro, hread, hU]
            rw [if_pos (frame_ne hu)]
            rfl
          have hdown : ∀ t : Bytes, l.downHas ++ (l.down ++ t) = t := by
            intro t
            rw [← List.append_assoc, hD]; rfl
          rcases verdict_cases r l.config.format a env x.payload h2 with ⟨t, hv, -⟩ | ⟨a', t, hv, ha1, -, ht⟩ | ⟨d, w, t, hv, -, hw, hsh⟩
          · rw [hv]
            exact fin _ _ (closed_login rfl).2 (closed_login rfl).1
          · rw [hv]
            obtain ⟨t', rfl, ht'⟩ := verdict_more_frame hv
            simp only [set_links, if_true]
            refine ⟨_, rfl, ?_, ?_⟩
            · exact ⟨rfl, ha1, h3, .inr ⟨hU2, t', hdown _, ht', token_frame ht ht'⟩⟩
            · have := pos_down (cfg := l.config) (j := j) (f := l.config.format) (a := a') (down := l.down ++ frame t')
                (downHas := l.downHas) hU2
              rw [hpos]
              omega
          · rw [hv]
            dsimp only
            split
            · simp only [set_links, if_true]
              refine ⟨_, rfl, ?_, ?_⟩
              · exact ⟨rfl, h3, w, t, [], hw, hsh, by dsimp only; rw [hdown, List.append_nil]⟩
              · rw [hpos]
                simp only [pos]
                split <;> split <;> decide
            · exact fin _ _ (closed_login rfl).2 (closed_login rfl).1
        · exact (readOne_nil hU hread).elim
  | attached f s =>
    dsimp only
    cases hread : readOne l.upHas with
    | none => exact stay hread ⟨f, .inr ⟨s, hro⟩⟩
    | some z =>
      obtain ⟨x, rest⟩ := z
      dsimp only
      have h1 : Login { l with router := .attached f s, upHas := rest } ∧ pos { l with router := .attached f s, upHas := rest } = pos l := by
        clear fin stay hl hread
        obtain ⟨cfg, cl, ro, up, upHas, down, downHas⟩ := l
        dsimp only at hro
        subst hro
        cases cl <;> exact ⟨h, rfl⟩
      have h2 : pos l % 4 ≠ 1 := by
        cases hcl : l.client <;> simp only [pos, hro, hcl] <;> (repeat' split) <;> decide
      cases hm : f.wire.deserialize x.payload with
      | error e => exact ⟨_, by rw [set_links, if_pos rfl], h1.1, by rw [h1.2], fun e => absurd e h2⟩
      | ok m =>
        dsimp only
        unfold Stack.handle
        split
        · refine ⟨_, by rw [push_links]; simp only [set_links, if_true]; rfl, (push_login h1.1 _).1, ?_, fun e => absurd e h2⟩
          rw [← (push_login h1.1 _).2, h1.2]
        · refine ⟨_, by rw [push_links]; simp only [set_links, if_true]; rfl, (push_login h1.1 _).1, ?_, fun e => absurd e h2⟩
          rw [← (push_login h1.1 _).2, h1.2]
        · exact ⟨_, by rw [set_links, if_pos rfl], h1.1, by rw [h1.2], fun e => absurd e h2⟩

/-! ## The client looks at what has arrived -/

/-- The joiner answers only CHALLENGE, and has sent HELLO before and AUTHENTICATE then. -/
theorem join_state (f : Format) (au : ClientAuthenticator) (j : Joiner) {data b : Bytes} {j' : Joiner}
    (h : j.receive f.wire au data = (j', .ok (some b))) : j.state = .helloSent ∧ j'.state = .authenticateSent := by
  unfold Joiner.receive at h
  cases hm : f.wire.deserialize data with
  | error e => rw [hm] at h; cases h
  | ok m =>
    rw [hm] at h
    dsimp only at h
    cases m
    case challenge x =>
      simp only [Joiner.receiveMessage] at h
      by_cases hj : j.state ≠ .helloSent
      · rw [if_pos hj] at h; cases h
      · rw [if_neg hj] at h
        refine ⟨Classical.byContradiction hj, ?_⟩
        cases ha : au.authenticate x with
        | error e => rw [ha] at h; cases h
        | ok y =>
          rw [ha] at h
          dsimp only at h
          injection h with h1 h2
          rw [← h1]
    case welcome w =>
      simp only [Joiner.receiveMessage] at h
      by_cases hj : j.state ≠ .helloSent ∧ j.state ≠ .authenticateSent
      · rw [if_pos hj] at h; cases h
      · rw [if_neg hj] at h; cases h
    all_goals cases h

theorem hear_login {l : Link} (h : Login l) : Login l.hear ∧ pos l ≤ pos l.hear ∧ (pos l % 4 = 3 → pos l < pos l.hear) := by
  by_cases hro : l.router = .closed
  · have h1 := closed_login hro
    have h2 := closed_login (l := l.hear) (by rw [hear_router, hro])
    exact ⟨h2.1, by omega, by omega⟩
  have fin : ∀ l' : Link, l'.client = .failed → Login l' ∧ pos l ≤ pos l' ∧ (pos l % 4 = 3 → pos l < pos l') := by
    intro l' hl'
    have h1 := failed_login hl'
    have h2 := pos_le l
    exact ⟨h1.1, by omega, by omega⟩
  unfold Link.hear
  cases hcl : l.client with
  | failed =>
    have := failed_login hcl
    exact ⟨h, Nat.le_refl _, by omega⟩
  | session calls =>
    cases hr2 : l.router with
    | greeting sid => simp only [Login, hcl, hr2] at h
    | accepting f a => simp only [Login, hcl, hr2] at h
    | closed => exact absurd hr2 hro
    | attached f s =>
      have hp : pos l = 12 := by simp only [pos, hcl, hr2]
      dsimp only
      split
      · exact ⟨h, Nat.le_refl _, by omega⟩
      · refine ⟨?_, ?_, by omega⟩
        · simp only [Login]
        · simp only [pos, hr2, hcl]; exact Nat.le_refl _
  | greeting =>
    dsimp only
    by_cases hlen : l.downHas.length < 4
    · rw [if_pos hlen]
      refine ⟨h, Nat.le_refl _, ?_⟩
      cases hr2 : l.router <;> simp only [pos, hcl, hr2, if_pos hlen]
      all_goals first
        | decide
        | (split <;> decide)
    · rw [if_neg hlen]
      cases hr2 : l.router with
      | closed => exact absurd hr2 hro
      | attached f s => simp only [Login, hcl, hr2] at h
      | greeting sid =>
        simp only [Login, hcl, hr2] at h
        rw [(List.append_eq_nil_iff.1 h.2).1] at hlen
        exact absurd (by decide) hlen
      | accepting f a =>
        simp only [Login, hcl, hr2] at h
        obtain ⟨h1, h2, h4, h5⟩ := h
        rw [List.length_append] at h5
        have hd1 : l.down = [] := List.eq_nil_of_length_eq_zero (by omega)
        have hd2 : l.downHas.drop 4 = [] := List.drop_eq_nil_of_le (by omega)
        have hp : pos l = 3 := by simp only [pos, hcl, hr2, if_neg hlen]
        cases hh : receiveHandshake (l.downHas.take 4) with
        | error e => exact fin _ rfl
        | ok hs' =>
          dsimp only
          cases hsh : (Joiner.init l.config.realm).sendHello l.config.format.wire l.config.authenticator l.config.roles with
          | mk j out =>
            cases out with
            | error e => exact fin _ rfl
            | ok t =>
              dsimp only
              by_cases hl : t.length < 2 ^ 24
              · rw [if_pos hl]
                have hj : j.state = .helloSent := by
                  have := congrArg (fun z => z.1.state) hsh
                  exact this.symm
                refine ⟨⟨h1, h2, .inl hj, .inl ⟨?_, t, ?_, hl⟩⟩, ?_, ?_⟩
                · dsimp only; rw [hd1, hd2]; rfl
                · dsimp only; rw [← List.append_assoc, h4]; rfl
                · rw [hp]; simp only [pos, hj, if_true]; omega
                · rw [hp]; simp only [pos, hj, if_true]; omega
              · rw [if_neg hl]; exact fin _ rfl
  | joining j =>
    dsimp only
    cases hread : readOne l.downHas with
    | none =>
      refine ⟨h, Nat.le_refl _, ?_⟩
      cases hr2 : l.router <;> simp only [pos, hcl, hr2, hread, Option.isNone_none, if_true]
      all_goals first
        | decide
        | ((repeat' split) <;> simp)
    | some z =>
      obtain ⟨x, rest⟩ := z
      dsimp only
      cases hr2 : l.router with
      | closed => exact absurd hr2 hro
      | greeting sid => simp only [Login, hcl, hr2] at h
      | accepting f a =>
        simp only [Login, hcl, hr2] at h
        obtain ⟨rfl, h2, h3, ⟨hD, -⟩ | ⟨hU, b, hD, hb, hn⟩⟩ := h
        · exact (readOne_nil hD hread).elim
        · obtain ⟨e1, e2⟩ := read_frame (rest := []) (by rw [hD, List.append_nil]) hb hread
          rw [e1]
          have hj := join_not_welcome l.config.format l.config.authenticator j hn
          have hs := fun t j' => @join_state l.config.format l.config.authenticator j b t j'
          generalize j.receive l.config.format.wire l.config.authenticator b = o at hj hs ⊢
          obtain ⟨j', out⟩ := o
          dsimp only at hj
          rcases hj with ⟨e, rfl⟩ | ⟨t, rfl⟩
          · exact fin _ rfl
          · dsimp only
            by_cases hl : t.length < 2 ^ 24
            · rw [if_pos hl]
              obtain ⟨s1, s2⟩ := hs _ _ rfl
              have hp : pos l = 7 := by simp only [pos, hcl, hr2, hU, hread, s1]; rfl
              have hp2 : 8 ≤ pos { l with client := .joining j', router := .accepting l.config.format a, downHas := rest, up := l.up ++ frame t } := by
                simp only [pos, s2]
                exact Nat.le_add_right _ _
              refine ⟨⟨rfl, h2, .inr s2, .inl ⟨e2, t, ?_, hl⟩⟩, ?_, ?_⟩
              · dsimp only; rw [← List.append_assoc, hU]; rfl
              · omega
              · omega
            · rw [if_neg hl]; exact fin _ rfl
      | attached f s =>
        simp only [Login, hcl, hr2] at h
        obtain ⟨rfl, h2, w, t, rest', h7, h8, h9⟩ := h
        obtain ⟨e1, e2⟩ := read_frame h9 h8 hread
        rw [e1]
        have hj := join_welcome l.config.format l.config.authenticator j h7
        generalize j.receive l.config.format.wire l.config.authenticator t = o at hj ⊢
        obtain ⟨j', out⟩ := o
        dsimp only at hj
        rcases hj with ⟨e, rfl⟩ | ⟨rfl, d, hd⟩
        · exact fin _ rfl
        · dsimp only
          rw [hd]
          refine ⟨trivial, pos_le l, ?_⟩
          intro h
          have := pos_le l
          show pos l < 12
          omega

theorem send_login {l : Link} (h : Login l) (m : Message) : Login (l.send m) ∧ pos (l.send m) = pos l := by
  obtain ⟨cfg, cl, ro, up, upHas, down, downHas⟩ := l
  cases cl
  case session calls => cases ro <;> exact ⟨h, rfl⟩
  all_goals exact ⟨h, rfl⟩

/-! ## One action -/

/-- What happens on another connection at most puts something onto the way to this client, if it is in. -/
theorem other_links (r : Setup) (n : Stack) {a : GAct} {c : Nat} (hc : c ≠ connOf a) :
    (n.gstep r a).links c = n.links c ∨ ∃ out, (n.gstep r a).links c = (n.links c).map (Link.push out) := by
  have hset : ∀ (n : Stack) c' x, c ≠ c' → (n.set c' x).links c = n.links c := by
    intro n c' x hne
    rw [set_links, if_neg hne]
  cases a with
  | inject c' b =>
    simp only [connOf] at hc
    simp only [Stack.gstep]
    split
    · exact .inl rfl
    · exact .inl (hset _ _ _ hc)
  | act a =>
    cases a <;> simp only [connOf] at hc <;> simp only [Stack.gstep, Stack.step]
    case connect => split <;> first | exact .inl (hset _ _ _ hc) | exact .inl rfl
    case drop =>
      split
      · exact .inl rfl
      · split
        · exact .inl (hset _ _ _ hc)
        · exact .inl (hset _ _ _ hc)
    case serve =>
      split
      · exact .inl rfl
      · unfold Stack.serve
        split
        · exact .inl (hset _ _ _ hc)
        · split
          · exact .inl rfl
          · split
            · exact .inl (hset _ _ _ hc)
            · exact .inl (hset _ _ _ hc)
            · dsimp only
              split
              · exact .inl (hset _ _ _ hc)
              · exact .inl (hset _ _ _ hc)
        · split
          · exact .inl rfl
          · split
            · exact .inl (hset _ _ _ hc)
            · unfold Stack.handle
              split
              · exact .inr ⟨_, by rw [push_links]; dsimp only; rw [hset _ _ _ hc]⟩
              · exact .inr ⟨_, by rw [push_links]; dsimp only; rw [hset _ _ _ hc]⟩
              · exact .inl (hset _ _ _ hc)
        · exact .inl rfl
    all_goals
      split
      · exact .inl rfl
      · exact .inl (hset _ _ _ hc)

/-- An action that brings the login on a connection further when it has come this far -/
def Helps (c : Nat) : Nat → GAct → Prop
  | 0, .act (.carryUp c' k) => c' = c ∧ 2 ^ 24 + 4 ≤ k
  | 1, .act (.serve c' _) => c' = c
  | 2, .act (.carryDown c' k) => c' = c ∧ 2 ^ 24 + 4 ≤ k
  | 3, .act (.hear c') => c' = c
  | _, _ => False

theorem login_step (r : Setup) (n : Stack) {c : Nat} {l : Link} (hl : n.links c = some l) (h : Login l) (a : GAct)
    (hi : ∀ b, a ≠ .inject c b) (hd : a ≠ .act (.drop c)) :
    ∃ l', (n.gstep r a).links c = some l' ∧ Login l' ∧ pos l ≤ pos l' ∧ (pos l < 12 → Helps c (pos l % 4) a → pos l < pos l') := by
  by_cases hc : c = connOf a
  · have hset : ∀ (n : Stack) x, (n.set c x).links c = x := by
      intro n x
      rw [set_links, if_pos rfl]
    cases a with
    | inject c' b => exact absurd (by rw [hc]; rfl) (hi b)
    | act a =>
      cases a <;> simp only [connOf] at hc <;> subst hc <;> simp only [Stack.gstep, Stack.step, hl]
      case connect => exact ⟨l, rfl, h, Nat.le_refl _, fun _ e => by revert e; unfold Helps; split <;> simp_all⟩
      case drop => exact absurd rfl hd
      case send m =>
        have := send_login h m
        exact ⟨_, hset _ _, this.1, by omega, fun _ e => by revert e; unfold Helps; split <;> simp_all⟩
      case hear =>
        have := hear_login h
        refine ⟨_, hset _ _, this.1, this.2.1, fun _ e => this.2.2 ?_⟩
        revert e; unfold Helps; split <;> simp_all
      case carryUp k =>
        have := up_login h k
        refine ⟨_, hset _ _, this.1, this.2.1, fun hp e => ?_⟩
        have : 2 ^ 24 + 4 ≤ k ∧ pos l % 4 = 0 := by revert e; unfold Helps; split <;> simp_all
        exact (up_login h k).2.2 this.1 this.2 hp
      case carryDown k =>
        have := down_login h k
        refine ⟨_, hset _ _, this.1, this.2.1, fun hp e => ?_⟩
        have : 2 ^ 24 + 4 ≤ k ∧ pos l % 4 = 2 := by revert e; unfold Helps; split <;> simp_all
        exact (down_login h k).2.2 this.1 this.2
      case serve env =>
        obtain ⟨l', h1, h2, h3, h4⟩ := serve_login r hl h env
        refine ⟨l', h1, h2, h3, fun _ e => h4 ?_⟩
        revert e; unfold Helps; split <;> simp_all
  · have hh : ¬ Helps c (pos l % 4) a := by
      unfold Helps
      split
      · rintro ⟨e, -⟩; exact hc (by simp [connOf, e])
      · intro e; exact hc (by simp [connOf, e])
      · rintro ⟨e, -⟩; exact hc (by simp [connOf, e])
      · intro e; exact hc (by simp [connOf, e])
      · exact id
    rcases other_links r n hc with e | ⟨out, e⟩ <;> rw [e, hl]
    · exact ⟨l, rfl, h, Nat.le_refl _, fun _ e => absurd e hh⟩
    · have := push_login h out
      exact ⟨_, rfl, this.1, by omega, fun _ e => absurd e hh⟩

/-- A new connection -/
theorem login_connect (r : Setup) (sched : List GAct) (c : Nat) {l : Link} (hl : (grun r sched).links c = some l)
    (hi : ∀ b, .inject c b ∉ sched) : Login l := by
  induction sched using snoc_induction generalizing l with
  | nil => cases hl
  | snoc sched a ih =>
    rw [grun_snoc] at hl
    have hi' : ∀ b, .inject c b ∉ sched := fun b h => hi b (List.mem_append_left _ h)
    cases hk : (grun r sched).links c with
    | some l0 =>
      by_cases hd : a = .act (.drop c)
      · subst hd
        simp only [Stack.gstep, Stack.step, hk] at hl
        split at hl <;> rw [set_links, if_pos rfl] at hl <;> cases hl
      · obtain ⟨l', h1, h2, -⟩ := login_step r _ hk (ih hk hi') a (fun b e => hi b (by rw [e]; simp)) hd
        rw [hl] at h1; cases h1
        exact h2
    | none =>
      by_cases hc : c = connOf a
      · cases a with
        | inject c' b => exact absurd (by rw [hc]; simp [connOf]) (hi b)
        | act a =>
          cases a <;> simp only [connOf] at hc <;> subst hc <;> simp only [Stack.gstep, Stack.step, hk] at hl
          case connect cfg sid =>
            cases hs : sendHandshake ⟨cfg.format.type, cfg.size⟩ with
            | error e => rw [hs] at hl; dsimp only at hl; rw [hk] at hl; cases hl
            | ok b =>
              rw [hs] at hl
              dsimp only at hl
              rw [set_links, if_pos rfl] at hl
              cases hl
              exact ⟨hs, rfl⟩
          all_goals cases hl
      · rcases other_links r (grun r sched) hc with e | ⟨out, e⟩ <;> rw [e, hk] at hl <;> cases hl

theorem gfold_append (r : Setup) (l1 l2 : List GAct) : grun r (l1 ++ l2) = l2.foldl (Stack.gstep r) (grun r l1) := by
  simp [grun, List.foldl_append]

/-- What is needed when the login has come this far -/
def Needs (c : Nat) : Nat → List GAct → Prop
  | p, [] => 12 ≤ p
  | p, a :: as => Helps c (p % 4) a ∧ Needs c (p + 1) as

theorem login_run (r : Setup) (c : Nat) (sched : List GAct) : ∀ (n : Stack) (l : Link) (p : Nat) (as : List GAct), n.links c = some l → Login l →
    min p 12 ≤ pos l → Needs c p as → as.Sublist sched → (∀ b, .inject c b ∉ sched) → .act (.drop c) ∉ sched →
    ∃ l', (sched.foldl (Stack.gstep r) n).links c = some l' ∧ Login l' ∧ 12 ≤ pos l' := by
  induction sched with
  | nil =>
    intro n l p as hl h hp hn hs hi hd
    cases hs
    have : 12 ≤ p := hn
    exact ⟨l, hl, h, by omega⟩
  | cons a sched ih =>
    intro n l p as hl h hp hn hs hi hd
    obtain ⟨l', h1, h2, h3, h4⟩ := login_step r n hl h a (fun b e => hi b (by rw [e]; simp)) (fun e => hd (by rw [e]; simp))
    have hi' : ∀ b, .inject c b ∉ sched := fun b h => hi b (List.mem_cons_of_mem _ h)
    have hd' : .act (.drop c) ∉ sched := fun h => hd (List.mem_cons_of_mem _ h)
    rw [List.foldl_cons]
    cases hs with
    | cons _ hs => exact ih _ l' p as h1 h2 (Nat.le_trans hp h3) hn hs hi' hd'
    | cons_cons _ hs =>
      rename_i as'
      refine ih _ l' (p + 1) as' h1 h2 ?_ hn.2 hs hi' hd'
      rcases Nat.lt_or_ge (pos l) 12 with hlt | hge
      · rcases Nat.lt_or_ge p (pos l) with hlt' | hge'
        · omega
        · have e : p = pos l := by omega
          have := h4 hlt (by rw [← e]; exact hn.1)
          omega
      · omega

end Wamp.Spec.Stack
