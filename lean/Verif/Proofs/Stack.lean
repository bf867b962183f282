import Verif.Spec.Stack
import Verif.Proofs.KeepsType
import Verif.Proofs.NetBase
import Verif.Proofs.ByteNet
import Verif.Props.RawSocketStream
import Verif.Props.Connection

/-! # The stack does what the network of sessions does -/

namespace Wamp.Spec.Stack
open RawSocket Net

/-! ## Frames -/

theorem frame_fits {b : Bytes} (h : b.length < 2 ^ 24) : (⟨MSG_TYPE_WAMP, b⟩ : Frame).Fits :=
  ⟨by show (0 : Int) ≤ MSG_TYPE_WAMP ∧ MSG_TYPE_WAMP < 256; decide, h⟩

theorem frame_eq {b : Bytes} (h : b.length < 2 ^ 24) :
    ∃ hd, (MessageHeader.mk MSG_TYPE_WAMP b.length).toBytes = .ok hd ∧ frame b = hd ++ b := by
  obtain ⟨hd, g1, -⟩ := C13_header_round_trip MSG_TYPE_WAMP b.length (frame_fits h).1 ⟨by omega, by omega⟩
  exact ⟨hd, g1, by rw [frame, if_pos h, g1]⟩

theorem stream_cons (b : Bytes) (bs : List Bytes) : stream (b :: bs) = frame b ++ stream bs := rfl
theorem stream_append (as bs : List Bytes) : stream (as ++ bs) = stream as ++ stream bs := List.flatMap_append

/-- All of these fit into frames. -/
def Short (bs : List Bytes) : Prop := ∀ b ∈ bs, b.length < 2 ^ 24

theorem readOne_stream {b : Bytes} (h : b.length < 2 ^ 24) (rest : Bytes) :
    readOne (frame b ++ rest) = some (⟨MSG_TYPE_WAMP, b⟩, rest) := by
  obtain ⟨hd, h1, h2⟩ := frame_eq h
  rw [h2]
  exact readOne_append (f := ⟨MSG_TYPE_WAMP, b⟩) (frame_fits h) h1 rest

/-- A frame read from the bytes that have arrived is the first of those sent. -/
theorem read_first {has wire rest : Bytes} {bs : List Bytes} {x : Frame} (h : has ++ wire = stream bs) (hs : Short bs)
    (hr : readOne has = some (x, rest)) : ∃ bs', bs = x.payload :: bs' ∧ rest ++ wire = stream bs' := by
  obtain ⟨hf, hd, h1, -, rfl⟩ := readOne_some hr
  have hall : readOne (stream bs) = some (x, rest ++ wire) := by
    rw [← h, List.append_assoc]
    exact readOne_append hf h1 _
  cases bs with
  | nil => simp [stream, readOne] at hall
  | cons b bs' =>
    rw [stream_cons, readOne_stream (hs b (by simp))] at hall
    injection hall with hall
    injection hall with h3 h4
    exact ⟨bs', by rw [← h3], h4.symm⟩

theorem stream_nil {bs : List Bytes} (hs : Short bs) (h : stream bs = []) : bs = [] := by
  cases bs with
  | nil => rfl
  | cons b bs =>
    have := readOne_stream (hs b (by simp)) (stream bs)
    rw [← stream_cons, h] at this
    simp [readOne] at this

theorem handshake_length {p s : Int} {b : Bytes} (h : sendHandshake ⟨p, s⟩ = .ok b) :
    b.length = 4 ∧ ∃ z, receiveHandshake b = .ok ⟨p % 16, z⟩ := by
  have hs : 2 ^ 9 ≤ s ∧ s < 2 ^ 25 := by
    apply Classical.byContradiction
    intro hn
    obtain ⟨e, he⟩ := C15_other_sizes_fail p s (by omega)
    rw [he] at h; cases h
  have hk : ∃ k : Nat, (9 ≤ k ∧ k ≤ 24) ∧ (2 : Int) ^ k ≤ s ∧ s < 2 ^ (k + 1) := by
    have h0 : s.toNat ≠ 0 := by omega
    refine ⟨Nat.log2 s.toNat, ⟨?_, ?_⟩, ?_, ?_⟩
    · exact (Nat.le_log2 h0).2 (by omega)
    · have := (Nat.log2_lt h0 (k := 25)).2 (by omega); omega
    · have := (Nat.le_log2 h0 (k := Nat.log2 s.toNat)).1 (Nat.le_refl _)
      have h2 : ((2 ^ Nat.log2 s.toNat : Nat) : Int) = 2 ^ Nat.log2 s.toNat := by norm_cast
      omega
    · have := (Nat.log2_lt h0 (k := Nat.log2 s.toNat + 1)).1 (by omega)
      have h2 : ((2 ^ (Nat.log2 s.toNat + 1) : Nat) : Int) = 2 ^ (Nat.log2 s.toNat + 1) := by norm_cast
      omega
  obtain ⟨k, hk1, hk2⟩ := hk
  obtain ⟨b', h1, h2, h3⟩ := C15_handshake_round_trip p s k hk1 hk2
  rw [h] at h1; cases h1
  exact ⟨h2, _, h3⟩

theorem type_mod (f : Format) : f.type % 16 = f.type := by cases f <;> decide

/-! ## The acceptor -/

theorem accept_cases (cr : Crypto) (env : AuthEnv) (a : Acceptor) (hd : a.sessionDetails = none) (m : Message) :
    (a.receiveMessage cr env m).1.sessionId = a.sessionId ∧
    (((a.receiveMessage cr env m).1.sessionDetails = none ∧
        ∀ x, (a.receiveMessage cr env m).2 = .ok (some x) → (∃ y, x = .abort y) ∨ ∃ y, x = .challenge y) ∨
      ∃ d w, (a.receiveMessage cr env m).1.sessionDetails = some d ∧ d.sessionId = a.sessionId ∧
        (a.receiveMessage cr env m).2 = .ok (some (.welcome w))) := by
  have hw : ∀ (a' : Acceptor) (realm : String) (x y z : Option String), a'.sessionId = a.sessionId →
      (a'.welcome realm x y z).1.sessionId = a.sessionId ∧
      (((a'.welcome realm x y z).1.sessionDetails = none ∧
        ∀ m, (a'.welcome realm x y z).2 = .ok (some m) → (∃ y, m = .abort y) ∨ ∃ y, m = .challenge y) ∨
      ∃ d w, (a'.welcome realm x y z).1.sessionDetails = some d ∧ d.sessionId = a.sessionId ∧
        (a'.welcome realm x y z).2 = .ok (some (.welcome w))) :=
    fun a' realm x y z h => ⟨h, .inr ⟨_, _, rfl, h, rfl⟩⟩
  unfold Acceptor.receiveMessage
  split
  · exact ⟨rfl, .inl ⟨hd, fun x h => by cases h⟩⟩
  · split
    · rename_i h
      unfold Acceptor.receiveHello
      split
      · exact ⟨rfl, .inl ⟨hd, fun x h => by cases h⟩⟩
      · split
        · exact hw _ _ _ _ _ rfl
        · dsimp only
          split
          · split
            · exact ⟨rfl, .inl ⟨hd, fun x h => by cases h; exact .inl ⟨_, rfl⟩⟩⟩
            · exact hw _ _ _ _ _ rfl
          · split
            · split
              · exact ⟨rfl, .inl ⟨hd, fun x h => by cases h⟩⟩
              · split
                · exact ⟨rfl, .inl ⟨hd, fun x h => by cases h⟩⟩
                · split
                  · exact ⟨rfl, .inl ⟨hd, fun x h => by cases h; exact .inl ⟨_, rfl⟩⟩⟩
                  · exact ⟨rfl, .inl ⟨hd, fun x h => by cases h; exact .inr ⟨_, rfl⟩⟩⟩
            · split
              · split
                · exact ⟨rfl, .inl ⟨hd, fun x h => by cases h; exact .inl ⟨_, rfl⟩⟩⟩
                · split
                  · exact ⟨rfl, .inl ⟨hd, fun x h => by cases h⟩⟩
                  · exact ⟨rfl, .inl ⟨hd, fun x h => by cases h; exact .inr ⟨_, rfl⟩⟩⟩
              · split
                · exact ⟨rfl, .inl ⟨hd, fun x h => by cases h; exact .inr ⟨_, rfl⟩⟩⟩
                · exact ⟨rfl, .inl ⟨hd, fun x h => by cases h⟩⟩
    · rename_i h
      unfold Acceptor.receiveAuthenticate Acceptor.welcomeResponse
      repeat' split
      all_goals first
        | exact hw _ _ _ _ _ rfl
        | exact ⟨rfl, .inl ⟨hd, fun x h => (by cases h <;> exact .inl ⟨_, rfl⟩)⟩⟩
    · exact ⟨rfl, .inl ⟨hd, fun x h => by cases h⟩⟩
    · exact ⟨rfl, .inl ⟨hd, fun x h => by cases h⟩⟩

/-- These bytes are not read as a WELCOME. -/
def NotWelcome (f : Format) (b : Bytes) : Prop := ∀ w, f.wire.deserialize b ≠ .ok (.welcome w)

/-- One frame or none, which is not a WELCOME -/
def Token (f : Format) (b : Bytes) : Prop := ∃ bs, b = stream bs ∧ Short bs ∧ bs.length ≤ 1 ∧ ∀ x ∈ bs, NotWelcome f x

theorem token_nil (f : Format) : Token f [] := ⟨[], rfl, (by intro b hb; cases hb), (by decide), (by intro b hb; cases hb)⟩

theorem frame_token {f : Format} {b : Bytes} (h : NotWelcome f b) : Token f (frame b) := by
  by_cases hl : b.length < 2 ^ 24
  · refine ⟨[b], by simp [stream], ?_, by simp, ?_⟩
    · intro x hx; rw [List.mem_singleton] at hx; subst hx; exact hl
    · intro x hx; rw [List.mem_singleton] at hx; subst hx; exact h
  · rw [frame, if_neg hl]; exact token_nil f

theorem verdict_cases (r : Setup) (f : Format) (a : Acceptor) (env : AuthEnv) (data : Bytes) (hd : a.sessionDetails = none) :
    (∃ b, verdict r f a env data = .away b ∧ Token f b) ∨
    (∃ a' b, verdict r f a env data = .more a' b ∧ a'.sessionDetails = none ∧ a'.sessionId = a.sessionId ∧ Token f b) ∨
    ∃ d w b, verdict r f a env data = .welcome d (frame b) ∧ d.sessionId = a.sessionId ∧ f.wire.serialize (.welcome w) = .ok b ∧
      b.length < 2 ^ 24 := by
  unfold verdict Acceptor.receive
  cases hm : f.wire.deserialize data with
  | error e => exact .inl ⟨[], rfl, token_nil f⟩
  | ok msg =>
    have hc := accept_cases r.crypto env a hd msg
    dsimp only
    generalize a.receiveMessage r.crypto env msg = o at hc
    obtain ⟨a', out⟩ := o
    dsimp only at hc ⊢
    cases out with
    | error e => exact .inl ⟨[], rfl, token_nil f⟩
    | ok t =>
      cases t with
      | none => exact .inl ⟨[], rfl, token_nil f⟩
      | some m =>
        dsimp only
        cases hs : f.wire.serialize m with
        | error e => exact .inl ⟨[], rfl, token_nil f⟩
        | ok b =>
          simp only [Except.map]
          obtain ⟨h1, h2 | ⟨d, w, h2, h3, h4⟩⟩ := hc
          · have hn := wire_not_welcome f (h2.2 m rfl) hs
            rcases h2.2 m rfl with ⟨y, rfl⟩ | ⟨y, rfl⟩
            · left
              simp only [Acceptor.getSessionDetails, h2.1]
              exact ⟨_, rfl, frame_token hn⟩
            · dsimp only
              by_cases hl : b.length < 2 ^ 24
              · rw [if_pos hl]
                exact .inr (.inl ⟨a', _, rfl, h2.1, h1, frame_token hn⟩)
              · rw [if_neg hl]; exact .inl ⟨[], rfl, token_nil f⟩
          · cases h4
            simp only [Acceptor.getSessionDetails, h2]
            by_cases hl : b.length < 2 ^ 24
            · rw [if_pos hl]
              exact .inr (.inr ⟨d, w, b, rfl, h3, hs, hl⟩)
            · rw [if_neg hl]; exact .inl ⟨[], rfl, token_nil f⟩

/-! ## The joiner -/

theorem join_not_welcome (f : Format) (au : ClientAuthenticator) (j : Joiner) {data : Bytes} (h : NotWelcome f data) :
    (∃ e, (j.receive f.wire au data).2 = .error e) ∨ ∃ b, (j.receive f.wire au data).2 = .ok (some b) := by
  unfold Joiner.receive
  cases hm : f.wire.deserialize data with
  | error e => exact .inl ⟨e, rfl⟩
  | ok m =>
    dsimp only
    cases m
    case welcome w => exact absurd hm (h w)
    case challenge x =>
      simp only [Joiner.receiveMessage]
      by_cases hj : j.state ≠ .helloSent
      · rw [if_pos hj]; exact .inl ⟨_, rfl⟩
      · rw [if_neg hj]
        cases au.authenticate x with
        | error e => exact .inl ⟨_, rfl⟩
        | ok y =>
          dsimp only
          cases f.wire.serialize (.authenticate y) with
          | error e => exact .inl ⟨_, rfl⟩
          | ok b => exact .inr ⟨_, rfl⟩
    all_goals exact .inl ⟨_, rfl⟩

theorem join_welcome (f : Format) (au : ClientAuthenticator) (j : Joiner) {w : Welcome} {data : Bytes}
    (h : f.wire.serialize (.welcome w) = .ok data) :
    (∃ e, (j.receive f.wire au data).2 = .error e) ∨
      ((j.receive f.wire au data).2 = .ok none ∧ ∃ d, (j.receive f.wire au data).1.getSessionDetails = .ok d) := by
  unfold Joiner.receive
  cases hm : f.wire.deserialize data with
  | error e => exact .inl ⟨e, rfl⟩
  | ok m =>
    obtain ⟨w', rfl⟩ := wire_welcome f h hm
    simp only [Joiner.receiveMessage]
    by_cases hj : j.state ≠ .helloSent ∧ j.state ≠ .authenticateSent
    · rw [if_pos hj]; exact .inl ⟨_, rfl⟩
    · rw [if_neg hj]; exact .inr ⟨rfl, _, rfl⟩

/-! ## The invariant -/

/-- What holds of a connection: the two ends, the bytes on the way up and those on the way down.  During login at most one frame is
on its way, in either direction; and no frame reads as a WELCOME before the router has let the client in. -/
def OkAt (fmt : Int → Format) (conns : Int → Option (BConn Bytes)) (cfg : Config) (U D : Bytes) : ClientEnd → RouterEnd → Prop
  | .greeting, .greeting sid => sendHandshake ⟨cfg.format.type, cfg.size⟩ = .ok U ∧ D = [] ∧ fmt sid.val = cfg.format
  | .greeting, .accepting f a =>
    f = cfg.format ∧ a.sessionDetails = none ∧ fmt a.sessionId.val = f ∧ U = [] ∧ D.length = 4
  | .joining _, .accepting f a =>
    f = cfg.format ∧ a.sessionDetails = none ∧ fmt a.sessionId.val = f ∧
      ((D = [] ∧ ∃ us, U = stream us ∧ Short us ∧ us.length ≤ 1) ∨ (U = [] ∧ Token f D))
  | .failed, .accepting f a => f = cfg.format ∧ a.sessionDetails = none ∧ fmt a.sessionId.val = f ∧ U = []
  | .greeting, .closed => D = []
  | .joining _, .closed => Token cfg.format D
  | .failed, .closed => True
  | .session calls, .attached f s => f = cfg.format ∧ fmt s = f ∧ ∃ k, conns s = some k ∧ k.calls = calls ∧ U = stream k.up ∧
      D = stream k.down
  | .joining _, .attached f s => f = cfg.format ∧ fmt s = f ∧ ∃ k, conns s = some k ∧ k.calls = [] ∧ k.up = [] ∧ U = [] ∧
      ∃ w b, f.wire.serialize (.welcome w) = .ok b ∧ b.length < 2 ^ 24 ∧ D = stream (b :: k.down)
  | .failed, .attached f s => f = cfg.format ∧ fmt s = f ∧ ∃ k, conns s = some k ∧ k.calls = [] ∧ k.up = [] ∧ U = []
  | _, _ => False

/-- The same, of a `Link` -/
def Ok (fmt : Int → Format) (conns : Int → Option (BConn Bytes)) (l : Link) : Prop :=
  OkAt fmt conns l.config (l.upHas ++ l.up) (l.downHas ++ l.down) l.client l.router

theorem OkAt.congr {fmt : Int → Format} {conns conns' : Int → Option (BConn Bytes)} {cfg : Config} {U D : Bytes} {cl : ClientEnd}
    {ro : RouterEnd} (h : OkAt fmt conns cfg U D cl ro) (hc : ∀ f s, ro = .attached f s → conns' s = conns s) :
    OkAt fmt conns' cfg U D cl ro := by
  cases ro with
  | attached f s =>
    cases cl <;> simp only [OkAt, hc f s rfl] at h ⊢ <;> exact h
  | _ => cases cl <;> exact h

theorem OkAt.in_ {fmt : Int → Format} {conns : Int → Option (BConn Bytes)} {cfg : Config} {U D : Bytes} {cl : ClientEnd}
    {f : Format} {s : Int} (h : OkAt fmt conns cfg U D cl (.attached f s)) :
    f = cfg.format ∧ fmt s = f ∧ ∃ k, conns s = some k ∧ U = stream k.up := by
  cases cl
  · exact h.elim
  · obtain ⟨h1, h2, k, h3, -, h4, h5, -⟩ := h
    exact ⟨h1, h2, k, h3, by rw [h4, h5]; rfl⟩
  · obtain ⟨h1, h2, k, h3, -, h4, -⟩ := h
    exact ⟨h1, h2, k, h3, h4⟩
  · obtain ⟨h1, h2, k, h3, -, h4, h5⟩ := h
    exact ⟨h1, h2, k, h3, by rw [h4, h5]; rfl⟩

structure SInv (fmt : Int → Format) (n : Stack) (b : BNet Bytes) : Prop where
  broker : n.broker = b.broker
  dealer : n.dealer = b.dealer
  ok : ∀ c l, n.links c = some l → Ok fmt b.conns l
  back : ∀ s k, b.conns s = some k → ∃ c l f, n.links c = some l ∧ l.router = .attached f s
  one : ∀ c c' l l' f f' s, n.links c = some l → l.router = .attached f s → n.links c' = some l' → l'.router = .attached f' s → c = c'
  known : ∀ s k, b.conns s = some k → s ∈ (Pub.view (Broker.trace b.broker)).known

theorem set_links (n : Stack) (c : Nat) (l : Option Link) (c' : Nat) :
    (n.set c l).links c' = if c' = c then l else n.links c' := rfl

def NotIn (r : RouterEnd) : Prop := ∀ f s, r ≠ .attached f s

/-- Something happens to a connection that is not in. -/
theorem SInv.out {fmt : Int → Format} {n : Stack} {b : BNet Bytes} (h : SInv fmt n b) (c : Nat)
    (hc : ∀ l, n.links c = some l → NotIn l.router) (l' : Option Link)
    (hn : ∀ l, l' = some l → NotIn l.router ∧ Ok fmt b.conns l) : SInv fmt (n.set c l') b := by
  refine ⟨h.broker, h.dealer, ?_, ?_, ?_, h.known⟩
  · intro c' l hl
    rw [set_links] at hl
    split at hl
    · exact (hn l hl).2
    · exact h.ok c' l hl
  · intro s k hk
    obtain ⟨c', l, f, h1, h2⟩ := h.back s k hk
    have hne : c' ≠ c := by rintro rfl; exact hc l h1 f s h2
    exact ⟨c', l, f, by rw [set_links, if_neg hne]; exact h1, h2⟩
  · intro c1 c2 l1 l2 f1 f2 s h1 h2 h3 h4
    rw [set_links] at h1 h3
    split at h1
    · exact absurd h2 ((hn l1 h1).1 f1 s)
    · split at h3
      · exact absurd h4 ((hn l2 h3).1 f2 s)
      · exact h.one c1 c2 l1 l2 f1 f2 s h1 h2 h3 h4

/-- Something happens to a connection that is in and remains so. -/
theorem SInv.same {fmt : Int → Format} {n : Stack} {b b' : BNet Bytes} (h : SInv fmt n b) {c : Nat} {l l' : Link} {f : Format} {s : Int}
    (hl : n.links c = some l) (hr : l.router = .attached f s) (hr' : l'.router = .attached f s) (hb : b'.broker = b.broker)
    (hd : b'.dealer = b.dealer) (hne : ∀ s', s' ≠ s → b'.conns s' = b.conns s') (hok : Ok fmt b'.conns l') :
    SInv fmt (n.set c (some l')) b' := by
  refine ⟨h.broker.trans hb.symm, h.dealer.trans hd.symm, ?_, ?_, ?_, ?_⟩
  · intro c' l2 hl2
    rw [set_links] at hl2
    split at hl2
    · cases hl2; exact hok
    · rename_i hcc
      refine (h.ok c' l2 hl2).congr ?_
      intro f2 s2 hr2
      apply hne
      rintro rfl
      exact hcc (h.one c' c l2 l f2 f _ hl2 hr2 hl hr)
  · intro s' k hk
    by_cases hs : s' = s
    · subst hs
      exact ⟨c, l', f, by rw [set_links, if_pos rfl], hr'⟩
    · rw [hne s' hs] at hk
      obtain ⟨c', l2, f2, h1, h2⟩ := h.back s' k hk
      have hcc : c' ≠ c := by
        rintro rfl
        rw [hl] at h1; cases h1
        rw [hr] at h2; cases h2
        exact hs rfl
      exact ⟨c', l2, f2, by rw [set_links, if_neg hcc]; exact h1, h2⟩
  · intro c1 c2 l1 l2 f1 f2 s2 h1 h2 h3 h4
    rw [set_links] at h1 h3
    have key : ∀ c3 l3 f3, (if c3 = c then some l' else n.links c3) = some l3 → l3.router = .attached f3 s2 →
        ∃ l4 f4, n.links c3 = some l4 ∧ l4.router = .attached f4 s2 := by
      intro c3 l3 f3 g1 g2
      split at g1
      · rename_i hcc
        subst hcc
        cases g1
        rw [hr'] at g2; cases g2
        exact ⟨l, f, hl, hr⟩
      · exact ⟨l3, f3, g1, g2⟩
    obtain ⟨l1', f1', g1, g2⟩ := key c1 l1 f1 h1 h2
    obtain ⟨l2', f2', g3, g4⟩ := key c2 l2 f2 h3 h4
    exact h.one c1 c2 l1' l2' f1' f2' s2 g1 g2 g3 g4
  · intro s' k hk
    rw [hb]
    by_cases hs : s' = s
    · subst hs
      have hok2 := h.ok c l hl
      rw [Ok, hr] at hok2
      obtain ⟨-, -, k2, h3, -⟩ := hok2.in_
      exact h.known _ _ h3
    · rw [hne s' hs] at hk
      exact h.known s' k hk

/-! ## Messages are handed out -/

theorem push_links (n : Stack) (out : List (Int × Message)) (c : Nat) : (n.push out).links c = (n.links c).map (Link.push out) := rfl

theorem push_router (out : List (Int × Message)) (l : Link) : (l.push out).router = l.router := by
  unfold Link.push; split <;> simp_all

theorem Ok.push {fmt : Int → Format} {b : BNet Bytes} {l : Link} (h : Ok fmt b.conns l) (out : List (Int × Message)) :
    Ok fmt (b.push (codecs fmt) out).conns (l.push out) := by
  cases hr : l.router with
  | attached f s =>
    have he : l.push out = { l with down := l.down ++ stream ((inbox out s).filterMap fun m => (f.wire.serialize m).toOption) } := by
      rw [Link.push, hr]
    rw [he]
    rw [Ok, hr] at h
    rw [Ok]
    dsimp only
    rw [hr, ← List.append_assoc]
    have hp : ∀ k, b.conns s = some k → fmt s = f → (b.push (codecs fmt) out).conns s =
        some { k with down := k.down ++ (inbox out s).filterMap fun m => (f.wire.serialize m).toOption } := by
      intro k hk hf
      simp only [BNet.push, hk, Option.map, codecs, hf]
    cases hcl : l.client with
    | greeting => rw [hcl] at h; exact h.elim
    | joining j =>
      rw [hcl] at h
      obtain ⟨h1, h2, k, h3, h4, h5, h6, w, b2, h7, h8, h9⟩ := h
      exact ⟨h1, h2, _, hp k h3 h2, h4, h5, h6, w, b2, h7, h8, by
        rw [h9, stream_cons, stream_cons, stream_append, List.append_assoc]⟩
    | session calls =>
      rw [hcl] at h
      obtain ⟨h1, h2, k, h3, h4, h5, h6⟩ := h
      exact ⟨h1, h2, _, hp k h3 h2, h4, h5, by rw [h6, stream_append]⟩
    | failed =>
      rw [hcl] at h
      obtain ⟨h1, h2, k, h3, h4, h5, h6⟩ := h
      exact ⟨h1, h2, _, hp k h3 h2, h4, h5, h6⟩
  | _ =>
    have he : l.push out = l := by rw [Link.push, hr]
    rw [he]
    refine OkAt.congr h ?_
    intro f s h2
    rw [hr] at h2; cases h2

theorem SInv.push {fmt : Int → Format} {n : Stack} {b : BNet Bytes} (h : SInv fmt n b) (out : List (Int × Message)) :
    SInv fmt (n.push out) (b.push (codecs fmt) out) := by
  have hb : ∀ s k, (b.push (codecs fmt) out).conns s = some k → ∃ k', b.conns s = some k' := by
    intro s k hk
    simp only [BNet.push] at hk
    cases hc : b.conns s with
    | none => rw [hc] at hk; cases hk
    | some k' => exact ⟨k', rfl⟩
  have hl : ∀ c l, (n.push out).links c = some l → ∃ l', n.links c = some l' ∧ l = l'.push out := by
    intro c l hk
    rw [push_links] at hk
    cases hc : n.links c with
    | none => rw [hc] at hk; cases hk
    | some l' => rw [hc] at hk; cases hk; exact ⟨l', rfl, rfl⟩
  refine ⟨h.broker, h.dealer, ?_, ?_, ?_, ?_⟩
  · intro c l hk
    obtain ⟨l', h1, rfl⟩ := hl c l hk
    exact (h.ok c l' h1).push out
  · intro s k hk
    obtain ⟨k', hk'⟩ := hb s k hk
    obtain ⟨c, l, f, h1, h2⟩ := h.back s k' hk'
    exact ⟨c, l.push out, f, by rw [push_links, h1]; rfl, by rw [push_router, h2]⟩
  · intro c1 c2 l1 l2 f1 f2 s h1 h2 h3 h4
    obtain ⟨l1', g1, rfl⟩ := hl c1 l1 h1
    obtain ⟨l2', g2, rfl⟩ := hl c2 l2 h3
    rw [push_router] at h2 h4
    exact h.one c1 c2 l1' l2' f1 f2 s g1 h2 g2 h4
  · intro s k hk
    obtain ⟨k', hk'⟩ := hb s k hk
    exact h.known s k' hk'

theorem SInv.handle {fmt : Int → Format} {n : Stack} {b : BNet Bytes} (h : SInv fmt n b) (s : Int) (m : Message) :
    SInv fmt (n.handle s m) (b.handle (codecs fmt) s m) := by
  unfold Stack.handle BNet.handle
  cases hb : brokerCall s m with
  | some op =>
    dsimp only
    have h2 : SInv fmt { n with broker := n.broker ++ [op] } { b with broker := b.broker ++ [op] } :=
      ⟨by simp [h.broker], h.dealer, h.ok, h.back, h.one, fun s' k hk =>
        (bknown_message b.broker (brokerCall_op hb).1 (brokerCall_op hb).2 s').2 (h.known s' k hk)⟩
    rw [← h.broker] at *
    exact h2.push _
  | none =>
    cases hd : dealerCall s m with
    | some op =>
      dsimp only
      have h2 : SInv fmt { n with dealer := n.dealer ++ [op] } { b with dealer := b.dealer ++ [op] } :=
        ⟨h.broker, by simp [h.dealer], h.ok, h.back, h.one, h.known⟩
      rw [← h.dealer] at *
      exact h2.push _
    | none => exact h

/-! ## Coming and going -/

theorem SInv.leave {fmt : Int → Format} {n : Stack} {b : BNet Bytes} (h : SInv fmt n b) {c : Nat} {l : Link} {f : Format} {s : Int}
    (hl : n.links c = some l) (hr : l.router = .attached f s) :
    SInv fmt (({ n with broker := n.broker ++ [.removeSession s], dealer := n.dealer ++ [.removeSession s] } : Stack).set c none)
      (b.step (codecs fmt) (.leave s)) := by
  have hconn : ∀ s', (b.step (codecs fmt) (.leave s)).conns s' = if s' = s then none else b.conns s' := fun s' => rfl
  have hlink : ∀ c' l', (if c' = c then none else n.links c') = some l' → c' ≠ c ∧ n.links c' = some l' := by
    intro c' l' h1
    split at h1
    · cases h1
    · rename_i hcc; exact ⟨hcc, h1⟩
  refine ⟨?_, ?_, ?_, ?_, ?_, ?_⟩
  · show n.broker ++ _ = b.broker ++ _; rw [h.broker]
  · show n.dealer ++ _ = b.dealer ++ _; rw [h.dealer]
  · intro c' l' hl'
    obtain ⟨g1, g2⟩ := hlink c' l' hl'
    refine (h.ok c' l' g2).congr ?_
    intro f' s' hr'
    rw [hconn, if_neg]
    rintro rfl
    exact g1 (h.one c' c l' l f' f s' g2 hr' hl hr)
  · intro s' k hk
    rw [hconn] at hk
    split at hk
    · cases hk
    · rename_i hs
      obtain ⟨c', l', f', h1, h2⟩ := h.back s' k hk
      have hcc : c' ≠ c := by
        rintro rfl
        rw [hl] at h1; cases h1
        rw [hr] at h2; cases h2
        exact hs rfl
      exact ⟨c', l', f', by rw [set_links, if_neg hcc]; exact h1, h2⟩
  · intro c1 c2 l1 l2 f1 f2 s2 h1 h2 h3 h4
    exact h.one c1 c2 l1 l2 f1 f2 s2 (hlink _ _ h1).2 h2 (hlink _ _ h3).2 h4
  · intro s' k hk
    rw [hconn] at hk
    split at hk
    · cases hk
    · rename_i hs
      show s' ∈ (Pub.view (Broker.trace (b.broker ++ [.removeSession s]))).known
      rw [bknown_snoc]
      refine .inr ⟨h.known s' k hk, ?_⟩
      rintro ⟨out, e⟩
      cases congrArg Prod.fst e
      exact hs rfl

theorem SInv.join {fmt : Int → Format} {n : Stack} {b : BNet Bytes} (h : SInv fmt n b) {c : Nat} {l : Link} (hl : n.links c = some l)
    (hr : NotIn l.router) (d : SessionDetails) (l1 l2 : Link) (f : Format) (h1 : l1.router = .attached f d.sessionId.val)
    (ok1 : ∀ conns, conns d.sessionId.val = some {} → Ok fmt conns l1) (h2 : NotIn l2.router)
    (ok2 : ∀ conns, Ok fmt conns l2) :
    SInv fmt
      (if returned (Broker.outcome n.broker (.addSession d)) ∧ returned (Dealer.outcome n.dealer (.addSession d)) then
        ({ n with broker := n.broker ++ [.addSession d], dealer := n.dealer ++ [.addSession d] } : Stack).set c (some l1)
      else ({ n with broker := n.broker ++ [.addSession d], dealer := n.dealer ++ [.addSession d] } : Stack).set c (some l2))
      (b.step (codecs fmt) (.join d)) := by
  rw [h.broker, h.dealer]
  simp only [BNet.step]
  have hkn : ∀ s, s ∈ (Pub.view (Broker.trace b.broker)).known →
      s ∈ (Pub.view (Broker.trace (b.broker ++ [.addSession d]))).known := by
    intro s hs
    rw [bknown_snoc]
    refine .inr ⟨hs, ?_⟩
    rintro ⟨out, e⟩
    cases congrArg Prod.fst e
  by_cases hret : returned (Broker.outcome b.broker (.addSession d)) ∧ returned (Dealer.outcome b.dealer (.addSession d))
  · rw [if_pos hret, if_pos hret]
    have hnew : d.sessionId.val ∉ (Pub.view (Broker.trace b.broker)).known := by
      intro hk
      obtain ⟨e, he⟩ := (badd_outcome b.broker d).2 hk
      have := hret.1
      rw [he] at this
      simp [returned] at this
    have hfree : ∀ c' l' f', n.links c' = some l' → l'.router ≠ .attached f' d.sessionId.val := by
      intro c' l' f' g1 g2
      have hok := h.ok c' l' g1
      rw [Ok, g2] at hok
      obtain ⟨-, -, k, g3, -⟩ := hok.in_
      exact hnew (h.known _ _ g3)
    refine ⟨rfl, rfl, ?_, ?_, ?_, ?_⟩
    · intro c' l' hl'
      rw [set_links] at hl'
      split at hl'
      · cases hl'
        exact ok1 _ (by simp [BNet.setConn])
      · refine (h.ok c' l' hl').congr ?_
        intro f' s' hr'
        simp only [BNet.setConn]
        rw [if_neg]
        rintro rfl
        exact hfree c' l' f' hl' hr'
    · intro s' k hk
      simp only [BNet.setConn] at hk
      split at hk
      · rename_i hs
        subst hs
        exact ⟨c, l1, f, by rw [set_links, if_pos rfl], h1⟩
      · obtain ⟨c', l', f', g1, g2⟩ := h.back s' k hk
        have hcc : c' ≠ c := by
          rintro rfl
          rw [hl] at g1; cases g1
          exact hr _ _ g2
        exact ⟨c', l', f', by rw [set_links, if_neg hcc]; exact g1, g2⟩
    · intro c1 c2 m1 m2 f1 f2 s g1 g2 g3 g4
      rw [set_links] at g1 g3
      split at g1
      · cases g1
        rw [h1] at g2; cases g2
        split at g3
        · simp_all
        · exact absurd g4 (hfree c2 m2 f2 g3)
      · split at g3
        · cases g3
          rw [h1] at g4; cases g4
          exact absurd g2 (hfree c1 m1 f1 g1)
        · exact h.one c1 c2 m1 m2 f1 f2 s g1 g2 g3 g4
    · intro s' k hk
      simp only [BNet.setConn] at hk
      split at hk
      · rename_i hs
        subst hs
        show d.sessionId.val ∈ (Pub.view (Broker.trace (b.broker ++ [.addSession d]))).known
        rw [bknown_snoc]
        exact .inl ⟨d, _, by rw [(badd_outcome b.broker d).1 hnew], rfl⟩
      · exact hkn s' (h.known s' k hk)
  · rw [if_neg hret, if_neg hret]
    have h' : SInv fmt ({ n with broker := b.broker ++ [.addSession d], dealer := b.dealer ++ [.addSession d] } : Stack)
        { b with broker := b.broker ++ [.addSession d], dealer := b.dealer ++ [.addSession d] } :=
      ⟨rfl, rfl, h.ok, h.back, h.one, fun s k hk => hkn s (h.known s k hk)⟩
    refine h'.out c ?_ (some l2) ?_
    · intro l' hl'
      rw [hl] at hl'; cases hl'
      exact hr
    · intro l' hl'
      cases hl'
      exact ⟨h2, ok2 _⟩

/-! ## One step -/

theorem notIn_greeting (sid : PyInt) : NotIn (.greeting sid) := fun f s h => by cases h
theorem notIn_accepting (f : Format) (a : Acceptor) : NotIn (.accepting f a) := fun f s h => by cases h
theorem notIn_closed : NotIn .closed := fun f s h => by cases h

/-- Everything on its way fits into frames. -/
def AllShort (b : BNet Bytes) : Prop := ∀ s k, b.conns s = some k → ∀ w ∈ k.up ++ k.down, w.length < 2 ^ 24

theorem AllShort.up {b : BNet Bytes} (h : AllShort b) {s : Int} {k : BConn Bytes} (hk : b.conns s = some k) : Short k.up :=
  fun w hw => h s k hk w (List.mem_append_left _ hw)
theorem AllShort.down {b : BNet Bytes} (h : AllShort b) {s : Int} {k : BConn Bytes} (hk : b.conns s = some k) : Short k.down :=
  fun w hw => h s k hk w (List.mem_append_right _ hw)

theorem one_short {b : Bytes} (h : b.length < 2 ^ 24) : Short [b] := by
  intro x hx; rw [List.mem_singleton] at hx; subst hx; exact h

/-- What a client sends during login is one frame, or nothing. -/
theorem frame_one (b : Bytes) : ∃ us, frame b = stream us ∧ Short us ∧ us.length ≤ 1 := by
  by_cases hl : b.length < 2 ^ 24
  · exact ⟨[b], by simp [stream], one_short hl, by simp⟩
  · exact ⟨[], by rw [frame, if_neg hl]; rfl, (by intro b hb; cases hb), by simp⟩

theorem read_token {f : Format} {has wire rest : Bytes} {x : Frame} (h : Token f (has ++ wire)) (hr : readOne has = some (x, rest)) :
    NotWelcome f x.payload ∧ rest ++ wire = [] := by
  obtain ⟨bs, h1, h2, h3, h4⟩ := h
  obtain ⟨bs', rfl, h5⟩ := read_first h1 h2 hr
  have : bs' = [] := by cases bs' with
    | nil => rfl
    | cons a l => simp at h3
  subst this
  exact ⟨h4 _ (by simp), h5⟩

theorem read_one {has wire rest : Bytes} {x : Frame} {us : List Bytes} (h : has ++ wire = stream us) (hs : Short us) (hl : us.length ≤ 1)
    (hr : readOne has = some (x, rest)) : rest ++ wire = [] := by
  obtain ⟨bs', rfl, h5⟩ := read_first h hs hr
  have : bs' = [] := by cases bs' with
    | nil => rfl
    | cons a l => simp at hl
  subst this
  exact h5

theorem readOne_nil {has wire : Bytes} {z : Frame × Bytes} (h : has ++ wire = []) (hr : readOne has = some z) : False := by
  have : has = [] := (List.append_eq_nil_iff.1 h).1
  subst this
  simp [readOne] at hr

theorem ok_greet {fmt : Int → Format} {conns : Int → Option (BConn Bytes)} {l : Link} {sid : PyInt} (r : Setup) (h : Ok fmt conns l)
    (hr : l.router = .greeting sid) : NotIn (l.greet r sid).router ∧ Ok fmt conns (l.greet r sid) := by
  have h0 := h
  rw [Ok, hr] at h
  cases hcl : l.client <;> rw [hcl] at h
  case greeting =>
    obtain ⟨h1, h2, h3⟩ := h
    unfold Link.greet
    split
    · exact ⟨by rw [hr]; exact notIn_greeting sid, h0⟩
    · rename_i hlen
      obtain ⟨h4, z, h5⟩ := handshake_length h1
      rw [List.length_append] at h4
      have hup : l.up = [] := List.eq_nil_of_length_eq_zero (by omega)
      have hhas : l.upHas.take 4 = l.upHas := List.take_of_length_le (by omega)
      have hdrop : l.upHas.drop 4 = [] := List.drop_eq_nil_of_le (by omega)
      rw [hup, List.append_nil] at h5
      rw [hhas, h5, hdrop]
      dsimp only
      rw [type_mod, formatOfType_type]
      dsimp only
      cases hs : sendHandshake ⟨l.config.format.type, r.size⟩ with
      | error e =>
        dsimp only
        refine ⟨notIn_closed, ?_⟩
        rw [Ok]; dsimp only; rw [hcl]
        exact h2
      | ok b =>
        dsimp only
        refine ⟨notIn_accepting _ _, ?_⟩
        rw [Ok]; dsimp only; rw [hcl, ← List.append_assoc, h2]
        exact ⟨rfl, rfl, h3, by rw [hup]; rfl, (handshake_length hs).1⟩
  all_goals exact h.elim

theorem SInv.serve {fmt : Int → Format} {n : Stack} {b : BNet Bytes} (h : SInv fmt n b) (hs : AllShort b) (r : Setup) (c : Nat)
    (env : AuthEnv) : SInv fmt (n.step r (.serve c env)) ((acts r n (.serve c env)).foldl (BNet.step (codecs fmt)) b) := by
  simp only [Stack.step, acts]
  cases hl : n.links c with
  | none => exact h
  | some l =>
    have hok := h.ok c l hl
    dsimp only
    unfold Stack.serve
    have hout : NotIn l.router → ∀ l', n.links c = some l' → NotIn l'.router := by
      intro hn l' hl'
      rw [hl] at hl'; cases hl'
      exact hn
    cases hr : l.router with
    | greeting sid =>
      dsimp only
      refine h.out c (hout (by rw [hr]; exact notIn_greeting sid)) _ ?_
      intro l' hl'
      cases hl'
      exact ok_greet r hok hr
    | closed => exact h
    | accepting f a =>
      dsimp only
      cases hread : readOne l.upHas with
      | none => exact h
      | some z =>
        obtain ⟨x, rest⟩ := z
        dsimp only
        rw [Ok, hr] at hok
        have hnot := hout (by rw [hr]; exact notIn_accepting f a)
        cases hcl : l.client <;> rw [hcl] at hok
        case greeting =>
          exact (readOne_nil hok.2.2.2.1 hread).elim
        case failed =>
          exact (readOne_nil hok.2.2.2 hread).elim
        case session calls => exact hok.elim
        case joining j =>
          obtain ⟨rfl, h2, h3, ⟨hD, us, h4, h5, h6⟩ | ⟨h4, -⟩⟩ := hok
          · have hU := read_one h4 h5 h6 hread
            have hdown : ∀ t : Bytes, l.downHas ++ (l.down ++ t) = t := by
              intro t
              rw [← List.append_assoc, hD]; rfl
            rcases verdict_cases r l.config.format a env x.payload h2 with ⟨t, hv, ht⟩ | ⟨a', t, hv, ha1, ha2, ht⟩ | ⟨d, w, t, hv, hd, hw, hsh⟩
            · rw [hv]
              dsimp only
              refine h.out c hnot _ ?_
              intro l' hl'
              cases hl'
              refine ⟨notIn_closed, ?_⟩
              rw [Ok]; dsimp only; rw [hdown]
              exact ht
            · rw [hv]
              dsimp only
              refine h.out c hnot _ ?_
              intro l' hl'
              cases hl'
              refine ⟨notIn_accepting _ _, ?_⟩
              rw [Ok]; dsimp only; rw [hdown, hU]
              exact ⟨rfl, ha1, by rw [ha2, h3], .inr ⟨rfl, ht⟩⟩
            · rw [hv]
              refine h.join hl (by rw [hr]; exact notIn_accepting _ _) d _ _ l.config.format rfl ?_ notIn_closed ?_
              · intro conns hconn
                rw [Ok]; dsimp only; rw [hdown, hU]
                exact ⟨rfl, by rw [hd, h3], _, hconn, rfl, rfl, rfl, w, t, hw, hsh, by simp [stream]⟩
              · intro conns
                rw [Ok]; dsimp only; rw [hD]
                exact token_nil _
          · exact (readOne_nil h4 hread).elim
    | attached f s =>
      dsimp only
      cases hread : readOne l.upHas with
      | none => exact h
      | some z =>
        obtain ⟨x, rest⟩ := z
        have hok0 := hok
        rw [Ok, hr] at hok
        obtain ⟨h1, h2, k, h3, h4⟩ := hok.in_
        obtain ⟨us, h5, h6⟩ := read_first h4 (hs.up h3) hread
        dsimp only [List.foldl]
        simp only [BNet.step, h3, h5, codecs, h2]
        have hset : SInv fmt (n.set c (some { l with router := .attached f s, upHas := rest }))
            (b.setConn s (some { k with up := us })) := by
          refine h.same hl hr rfl rfl rfl ?_ ?_
          · intro s' hne
            simp [BNet.setConn, hne]
          · rw [Ok]; dsimp only
            have hc2 : (b.setConn s (some { k with up := us })).conns s = some { k with up := us } := by simp [BNet.setConn]
            cases hcl : l.client with
            | greeting => rw [hcl] at hok; exact hok.elim
            | joining j =>
              rw [hcl] at hok
              obtain ⟨-, -, k', g3, -, g5, -, -⟩ := hok
              rw [h3] at g3; cases g3
              rw [h5] at g5; cases g5
            | failed =>
              rw [hcl] at hok
              obtain ⟨-, -, k', g3, -, g5, -⟩ := hok
              rw [h3] at g3; cases g3
              rw [h5] at g5; cases g5
            | session calls =>
              rw [hcl] at hok
              obtain ⟨-, -, k', g3, g4, -, g6⟩ := hok
              rw [h3] at g3; cases g3
              exact ⟨h1, h2, _, hc2, g4, h6, g6⟩
        cases hm : f.wire.deserialize x.payload with
        | error e => exact hset
        | ok m =>
          exact hset.handle s m

theorem hear_router (l : Link) : l.hear.router = l.router := by
  unfold Link.hear
  repeat' split
  all_goals rfl

/-- What the client makes of the handshake and of the login messages -/
theorem ok_hear {fmt : Int → Format} {b : BNet Bytes} (hs : AllShort b) (l : Link) (h : Ok fmt b.conns l)
    (hcl : ∀ calls, l.client ≠ .session calls) : Ok fmt b.conns l.hear := by
  obtain ⟨cfg, cl, ro, up, upHas, down, downHas⟩ := l
  cases cl with
  | failed => exact h
  | session calls => exact absurd rfl (hcl calls)
  | greeting =>
    have hnil : downHas ++ down = [] → downHas.length < 4 := by
      intro e; rw [(List.append_eq_nil_iff.1 e).1]; decide
    simp only [Link.hear]
    by_cases hlen : downHas.length < 4
    · rw [if_pos hlen]; exact h
    · rw [if_neg hlen]
      cases ro with
      | greeting sid => exact absurd (hnil h.2.1) hlen
      | closed => exact absurd (hnil h) hlen
      | attached f s => exact h.elim
      | accepting f a =>
        obtain ⟨h1, h2, h3, h4, h5⟩ := h
        dsimp only at h5
        rw [List.length_append] at h5
        have hd1 : down = [] := List.eq_nil_of_length_eq_zero (by omega)
        have hd2 : downHas.drop 4 = [] := List.drop_eq_nil_of_le (by omega)
        cases hh : receiveHandshake (downHas.take 4) with
        | error e => exact ⟨h1, h2, h3, h4⟩
        | ok hs' =>
          dsimp only
          cases hsh : (Joiner.init cfg.realm).sendHello cfg.format.wire cfg.authenticator cfg.roles with
          | mk j out =>
            cases out with
            | error e => exact ⟨h1, h2, h3, h4⟩
            | ok t =>
              dsimp only
              by_cases hl : t.length < 2 ^ 24
              · rw [if_pos hl]
                obtain ⟨us, g1, g2, g3⟩ := frame_one t
                refine ⟨h1, h2, h3, .inl ⟨?_, us, ?_, g2, g3⟩⟩
                · dsimp only; rw [hd1, hd2]; rfl
                · dsimp only at h4 ⊢; rw [← List.append_assoc, h4]; exact g1
              · rw [if_neg hl]; exact ⟨h1, h2, h3, h4⟩
  | joining j =>
    simp only [Link.hear]
    cases hread : readOne downHas with
    | none => exact h
    | some z =>
      obtain ⟨x, rest⟩ := z
      dsimp only
      cases ro with
      | greeting sid => exact h.elim
      | closed =>
        obtain ⟨hnw, hD⟩ := read_token (show Token cfg.format (downHas ++ down) from h) hread
        have hj := join_not_welcome cfg.format cfg.authenticator j hnw
        generalize j.receive cfg.format.wire cfg.authenticator x.payload = o at hj ⊢
        obtain ⟨j', out⟩ := o
        dsimp only at hj
        rcases hj with ⟨e, rfl⟩ | ⟨t, rfl⟩
        · exact trivial
        · dsimp only
          by_cases hl : t.length < 2 ^ 24
          · rw [if_pos hl]
            show Token cfg.format (rest ++ down)
            rw [hD]; exact token_nil _
          · rw [if_neg hl]; exact trivial
      | accepting f a =>
        obtain ⟨h1, h2, h3, ⟨hD, -⟩ | ⟨hU, htok⟩⟩ := h
        · exact (readOne_nil hD hread).elim
        · dsimp only at h1
          subst h1
          obtain ⟨hnw, hD⟩ := read_token htok hread
          have hj := join_not_welcome cfg.format cfg.authenticator j hnw
          dsimp only at h3 hU hD ⊢
          generalize j.receive cfg.format.wire cfg.authenticator x.payload = o at hj ⊢
          obtain ⟨j', out⟩ := o
          dsimp only at hj
          rcases hj with ⟨e, rfl⟩ | ⟨t, rfl⟩
          · exact ⟨rfl, h2, h3, hU⟩
          · dsimp only
            by_cases hl : t.length < 2 ^ 24
            · rw [if_pos hl]
              obtain ⟨us, g1, g2, g3⟩ := frame_one t
              refine ⟨rfl, h2, h3, .inl ⟨hD, us, ?_, g2, g3⟩⟩
              dsimp only; rw [← List.append_assoc, hU]; exact g1
            · rw [if_neg hl]; exact ⟨rfl, h2, h3, hU⟩
      | attached f s =>
        obtain ⟨h1, h2, k, h3, h4, h5, h6, w, t, h7, h8, h9⟩ := h
        dsimp only at h1
        subst h1
        have hsh : Short (t :: k.down) := by
          intro y hy
          rcases List.mem_cons.1 hy with rfl | hy
          · exact h8
          · exact hs.down h3 y hy
        obtain ⟨bs', e1, e2⟩ := read_first h9 hsh hread
        injection e1 with e3 e4
        subst e3; subst e4
        have hj := join_welcome cfg.format cfg.authenticator j h7
        dsimp only at h2 h6 e2 ⊢
        generalize j.receive cfg.format.wire cfg.authenticator x.payload = o at hj ⊢
        obtain ⟨j', out⟩ := o
        dsimp only at hj
        rcases hj with ⟨e, rfl⟩ | ⟨rfl, d, hd⟩
        · exact ⟨rfl, h2, k, h3, h4, h5, h6⟩
        · dsimp only
          rw [hd]
          exact ⟨rfl, h2, k, h3, h4, by dsimp only; rw [h6, h5]; rfl, e2⟩

theorem SInv.hear {fmt : Int → Format} {n : Stack} {b : BNet Bytes} (h : SInv fmt n b) (hs : AllShort b) (r : Setup) (c : Nat) :
    SInv fmt (n.step r (.hear c)) ((acts r n (.hear c)).foldl (BNet.step (codecs fmt)) b) := by
  simp only [Stack.step, acts]
  cases hl : n.links c with
  | none => exact h
  | some l =>
    have hok := h.ok c l hl
    dsimp only
    have hquiet : Ok fmt b.conns l.hear → SInv fmt (n.set c (some l.hear)) b := by
      intro h2
      cases hr : l.router with
      | attached f s => exact h.same hl hr ((hear_router l).trans hr) rfl rfl (fun _ _ => rfl) h2
      | _ =>
        have hn : NotIn l.router := by rw [hr]; intro f s e; cases e
        refine h.out c ?_ _ ?_
        · intro l' hl'
          rw [hl] at hl'; cases hl'
          exact hn
        · intro l' hl'
          cases hl'
          exact ⟨by rw [hear_router]; exact hn, h2⟩
    cases hcl : l.client with
    | session calls =>
      rw [Ok, hcl] at hok
      cases hr : l.router with
      | attached f s =>
        rw [hr] at hok
        obtain ⟨h1, h2, k, h3, h4, h5, h6⟩ := hok
        have hh : l.hear = match readOne l.downHas with
            | none => l
            | some (x, rest) => { l with client := .session (calls ++ [.receive x.payload]), downHas := rest } := by
          rw [Link.hear, hcl]
          cases readOne l.downHas <;> rfl
        cases hread : readOne l.downHas with
        | none =>
          rw [hread] at hh
          refine hquiet ?_
          rw [hh]
          exact h.ok c l hl
        | some z =>
          obtain ⟨x, rest⟩ := z
          obtain ⟨ds, e1, e2⟩ := read_first h6 (hs.down h3) hread
          rw [hread] at hh
          rw [hh]
          dsimp only [List.foldl]
          simp only [BNet.step, h3, e1]
          refine h.same hl hr hr rfl rfl ?_ ?_
          · intro s' hne
            simp [BNet.setConn, hne]
          · rw [Ok]; dsimp only; rw [hr]
            exact ⟨h1, h2, { k with calls := k.calls ++ [.receive x.payload], down := ds }, by simp [BNet.setConn, h4], by rw [h4], h5, e2⟩
      | _ => rw [hr] at hok; exact hok.elim
    | _ =>
      refine hquiet (ok_hear hs l hok ?_)
      intro calls e
      rw [hcl] at e; cases e

theorem SInv.send {fmt : Int → Format} {n : Stack} {b : BNet Bytes} (h : SInv fmt n b) (r : Setup) (c : Nat) (m : Message) :
    SInv fmt (n.step r (.send c m)) ((acts r n (.send c m)).foldl (BNet.step (codecs fmt)) b) := by
  simp only [Stack.step, acts]
  cases hl : n.links c with
  | none => exact h
  | some l =>
    have hok := h.ok c l hl
    have hself : SInv fmt (n.set c (some l)) b := by
      have : n.set c (some l) = n := by
        unfold Stack.set
        congr
        funext c'
        by_cases hc : c' = c
        · rw [if_pos hc, hc, hl]
        · rw [if_neg hc]
      rw [this]; exact h
    dsimp only
    unfold Link.send
    cases hcl : l.client with
    | session calls =>
      dsimp only
      rw [Ok, hcl] at hok
      cases hr : l.router with
      | attached f s =>
        rw [hr] at hok
        obtain ⟨h1, h2, k, h3, h4, h5, h6⟩ := hok
        dsimp only [List.foldl]
        simp only [BNet.step, h3, codecs, h2, h4, ← h1]
        refine h.same hl hr rfl rfl rfl ?_ ?_
        · intro s' hne
          simp [BNet.setConn, hne]
        · rw [Ok]; dsimp only
          have hc2 : ∀ K, (b.setConn s (some K)).conns s = some K := fun K => by simp [BNet.setConn]
          refine ⟨h1, h2, _, hc2 _, rfl, ?_, h6⟩
          dsimp only
          cases WAMPSession.outcome f.wire calls (.sendMessage m) with
          | error e => exact h5
          | ok o =>
            cases o with
            | data w =>
              dsimp only
              rw [← List.append_assoc, h5, stream_append]
              simp [stream]
            | msg m' => exact h5
      | _ => rw [hr] at hok; exact hok.elim
    | _ => exact hself

theorem SInv.step {fmt : Int → Format} {n : Stack} {b : BNet Bytes} (h : SInv fmt n b) (hs : AllShort b) (r : Setup) (a : SAct)
    (hc : ∀ c cfg sid, a = .connect c cfg sid → fmt sid.val = cfg.format) :
    SInv fmt (n.step r a) ((acts r n a).foldl (BNet.step (codecs fmt)) b) := by
  have hmove : ∀ c l l', n.links c = some l → l'.router = l.router → Ok fmt b.conns l' → SInv fmt (n.set c (some l')) b := by
    intro c l l' hl h1 h2
    cases hr : l.router with
    | attached f s => exact h.same hl hr (h1.trans hr) rfl rfl (fun _ _ => rfl) h2
    | _ =>
      have hn : NotIn l.router := by rw [hr]; intro f s e; cases e
      refine h.out c ?_ _ ?_
      · intro l2 hl2
        rw [hl] at hl2; cases hl2
        exact hn
      · intro l2 hl2
        cases hl2
        exact ⟨by rw [h1]; exact hn, h2⟩
  cases a with
  | connect c cfg sid =>
    simp only [Stack.step, acts, List.foldl]
    cases hl : n.links c with
    | some l => exact h
    | none =>
      cases hh : sendHandshake ⟨cfg.format.type, cfg.size⟩ with
      | error e => exact h
      | ok t =>
        dsimp only
        refine h.out c ?_ _ ?_
        · intro l hl2
          rw [hl] at hl2; cases hl2
        · intro l hl2
          cases hl2
          exact ⟨notIn_greeting sid, hh, rfl, hc c cfg sid rfl⟩
  | carryUp c k =>
    simp only [Stack.step, acts, List.foldl]
    cases hl : n.links c with
    | none => exact h
    | some l =>
      refine hmove c l _ hl rfl ?_
      have := h.ok c l hl
      rw [Ok] at this ⊢
      dsimp only
      rw [List.append_assoc, List.take_append_drop]
      exact this
  | carryDown c k =>
    simp only [Stack.step, acts, List.foldl]
    cases hl : n.links c with
    | none => exact h
    | some l =>
      refine hmove c l _ hl rfl ?_
      have := h.ok c l hl
      rw [Ok] at this ⊢
      dsimp only
      rw [List.append_assoc, List.take_append_drop]
      exact this
  | serve c env => exact h.serve hs r c env
  | hear c => exact h.hear hs r c
  | send c m => exact h.send r c m
  | drop c =>
    simp only [Stack.step, acts]
    cases hl : n.links c with
    | none => exact h
    | some l =>
      dsimp only
      cases hr : l.router with
      | attached f s => exact h.leave hl hr
      | _ =>
        have hn : NotIn l.router := by rw [hr]; intro f s e; cases e
        refine h.out c ?_ _ ?_
        · intro l2 hl2
          rw [hl] at hl2; cases hl2
          exact hn
        · intro l2 hl2
          cases hl2

/-! ## Whole schedules -/

theorem srun_snoc (r : Setup) (sched : List SAct) (a : SAct) : srun r (sched ++ [a]) = (srun r sched).step r a := by simp [srun]

theorem sessions_fst (r : Setup) (sched : List SAct) :
    (sched.foldl (fun (x : Stack × List Act) a => (x.1.step r a, x.2 ++ acts r x.1 a)) ({}, [])).1 = srun r sched := by
  induction sched using snoc_induction with
  | nil => rfl
  | snoc l a ih => rw [srun_snoc, List.foldl_append]; simp only [List.foldl]; rw [ih]

theorem sessions_snoc (r : Setup) (sched : List SAct) (a : SAct) :
    sessions r (sched ++ [a]) = sessions r sched ++ acts r (srun r sched) a := by
  rw [sessions, List.foldl_append]
  simp only [List.foldl]
  rw [sessions_fst]
  rfl

theorem sinv_run (fmt : Int → Format) (r : Setup) (sched : List SAct) : Consistent fmt sched → NothingTooLong fmt (sessions r sched) →
    SInv fmt (srun r sched) (brun (codecs fmt) (sessions r sched)) := by
  induction sched using snoc_induction with
  | nil =>
    intro _ _
    refine ⟨rfl, rfl, ?_, ?_, ?_, ?_⟩
    · intro c l h; cases h
    · intro s k h; cases h
    · intro c c' l l' f f' s h; cases h
    · intro s k h; cases h
  | snoc l a ih =>
    intro hc hn
    rw [sessions_snoc] at hn ⊢
    have h := ih (fun c cfg sid hm => hc c cfg sid (List.mem_append_left _ hm))
      (fun pre hp => hn pre (hp.trans (List.prefix_append _ _)))
    rw [srun_snoc, brun, List.foldl_append]
    exact h.step (hn _ (List.prefix_append _ _)) r a (fun c cfg sid e => hc c cfg sid (by simp [e]))

theorem SInv.matches {fmt : Int → Format} {n : Stack} {b : BNet Bytes} (h : SInv fmt n b) : Matches n b := by
  refine ⟨h.broker, h.dealer, ?_, h.back, h.one, ?_⟩
  · intro c l f s hl hr
    have hok := h.ok c l hl
    rw [Ok, hr] at hok
    obtain ⟨h1, h2, k, h3, h4⟩ := hok.in_
    refine ⟨h1.symm, k, h3, h4, ?_, ?_, ?_⟩
    · intro calls hcl
      rw [hcl] at hok
      obtain ⟨-, -, k', g3, g4, g5, g6⟩ := hok
      rw [h3] at g3; cases g3
      exact ⟨g4, g6⟩
    · intro j hcl
      rw [hcl] at hok
      obtain ⟨-, -, k', g3, g4, g5, g6, w, t, g7, g8, g9⟩ := hok
      rw [h3] at g3; cases g3
      exact ⟨g4, g5, w, t, by rw [← h1]; exact g7, g8, g9⟩
    · intro hcl
      rw [hcl] at hok
      obtain ⟨-, -, k', g3, g4, g5, -⟩ := hok
      rw [h3] at g3; cases g3
      exact ⟨g4, g5⟩
  · intro c l calls hl hcl
    have hok := h.ok c l hl
    rw [Ok, hcl] at hok
    cases hr : l.router with
    | attached f s => exact ⟨f, s, rfl⟩
    | _ => rw [hr] at hok; exact hok.elim

end Wamp.Spec.Stack
