import Verif.Proofs.LoginEnds
import Verif.Props.Strangers

/-! # C123: every login comes to an end -/

namespace Wamp.Spec.Stack
open RawSocket Net Hs

/-- Once a client of this package has connected, three exchanges are enough, whatever else happens before, in between and
after on this and the other connections, however few bytes arrive at a time besides, and whatever the authenticator, the clock
and the random source say: then the client is in and the router has let it in, or the client has given up, or the router has
turned it away. -/
theorem C123_login_ends (r : Setup) (before after : List GAct) (c : Nat) (l : Link) (hl : (grun r before).links c = some l)
    (hi : ∀ b, .inject c b ∉ before ++ after) (hd : .act (.drop c) ∉ after) (u₁ d₁ u₂ d₂ u₃ d₃ : Nat) (e₁ e₂ e₃ : AuthEnv)
    (hn : ∀ k ∈ [u₁, d₁, u₂, d₂, u₃, d₃], 2 ^ 24 + 4 ≤ k)
    (hs : (exchange c u₁ d₁ e₁ ++ exchange c u₂ d₂ e₂ ++ exchange c u₃ d₃ e₃).Sublist after) :
    ∃ l', (grun r (before ++ after)).links c = some l' ∧ Ended l' := by
  have h := login_connect r before c hl (fun b hb => hi b (List.mem_append_left _ hb))
  have hk : (2 ^ 24 + 4 ≤ u₁ ∧ 2 ^ 24 + 4 ≤ d₁) ∧ (2 ^ 24 + 4 ≤ u₂ ∧ 2 ^ 24 + 4 ≤ d₂) ∧ 2 ^ 24 + 4 ≤ u₃ ∧ 2 ^ 24 + 4 ≤ d₃ := by
    refine ⟨⟨hn _ ?_, hn _ ?_⟩, ⟨hn _ ?_, hn _ ?_⟩, hn _ ?_, hn _ ?_⟩ <;> simp
  obtain ⟨⟨k1, k2⟩, ⟨k3, k4⟩, k5, k6⟩ := hk
  have hneed : Needs c 0 (exchange c u₁ d₁ e₁ ++ exchange c u₂ d₂ e₂ ++ exchange c u₃ d₃ e₃) :=
    show Needs c 0 [_, _, _, _, _, _, _, _, _, _, _, _] from
    ⟨⟨rfl, k1⟩, rfl, ⟨rfl, k2⟩, rfl, ⟨rfl, k3⟩, rfl, ⟨rfl, k4⟩, rfl, ⟨rfl, k5⟩, rfl, ⟨rfl, k6⟩, rfl, Nat.le_refl 12⟩
  obtain ⟨l', h1, h2, h3⟩ := login_run r c after (grun r before) l 0 _ hl h (Nat.zero_le _) hneed hs
    (fun b hb => hi b (List.mem_append_right _ hb)) hd
  exact ⟨l', by rw [gfold_append]; exact h1, ended_of_pos h2 h3⟩

/-- Once it has come to its end it stays there. -/
theorem C123_stays_ended (r : Setup) (before after : List GAct) (c : Nat) (l : Link) (hl : (grun r before).links c = some l)
    (he : Ended l) (hi : ∀ b, .inject c b ∉ before ++ after) (hd : .act (.drop c) ∉ after) :
    ∃ l', (grun r (before ++ after)).links c = some l' ∧ Ended l' := by
  have h := login_connect r before c hl (fun b hb => hi b (List.mem_append_left _ hb))
  have hp := pos_of_ended he
  obtain ⟨l', h1, h2, h3⟩ := login_run r c after (grun r before) l 12 [] hl h (by omega) (Nat.le_refl 12) (List.nil_sublist _)
    (fun b hb => hi b (List.mem_append_right _ hb)) hd
  exact ⟨l', by rw [gfold_append]; exact h1, ended_of_pos h2 h3⟩

/-- There is no deadlock: as long as the login has not come to its end, one of the four steps of an exchange changes the connection,
whatever the authenticator says. -/
theorem C123_no_deadlock (r : Setup) (sched : List GAct) (c : Nat) (l : Link) (hl : (grun r sched).links c = some l)
    (hi : ∀ b, .inject c b ∉ sched) (he : ¬ Ended l) (u d : Nat) (hu : 2 ^ 24 + 4 ≤ u) (hd : 2 ^ 24 + 4 ≤ d) (env : AuthEnv) :
    ∃ a ∈ exchange c u d env, (grun r (sched ++ [a])).links c ≠ some l := by
  have h := login_connect r sched c hl hi
  have hp : pos l < 12 := Nat.lt_of_not_le fun hp => he (ended_of_pos h hp)
  have : ∃ a ∈ exchange c u d env, Helps c (pos l % 4) a ∧ (∀ b, a ≠ .inject c b) ∧ a ≠ .act (.drop c) := by
    have h4 : pos l % 4 = 0 ∨ pos l % 4 = 1 ∨ pos l % 4 = 2 ∨ pos l % 4 = 3 := by omega
    rcases h4 with e | e | e | e <;> rw [e]
    · exact ⟨.act (.carryUp c u), by simp [exchange], ⟨rfl, hu⟩, (by intro b e; cases e), by intro e; cases e⟩
    · exact ⟨.act (.serve c env), by simp [exchange], rfl, (by intro b e; cases e), by intro e; cases e⟩
    · exact ⟨.act (.carryDown c d), by simp [exchange], ⟨rfl, hd⟩, (by intro b e; cases e), by intro e; cases e⟩
    · exact ⟨.act (.hear c), by simp [exchange], rfl, (by intro b e; cases e), by intro e; cases e⟩
  obtain ⟨a, ha, h1, h2, h3⟩ := this
  refine ⟨a, ha, ?_⟩
  obtain ⟨l', g1, -, -, g4⟩ := login_step r _ hl h a h2 h3
  rw [grun_snoc, g1]
  intro e
  cases e
  exact absurd (g4 hp h1) (Nat.lt_irrefl _)

/-- Somebody with the secret logs in, while a stranger disturbs. -/
def slowly : List GAct :=
  let k := 2 ^ 24 + 4
  [.act (.carryUp 1 3), .act (.serve 1 craEnv)] ++ exchange 1 k k craEnv ++ [.inject 0 hostile, .act (.carryUp 1 1)] ++ exchange 1 k k craEnv ++
    [.act (.serve 0 craEnv), .act (.hear 1)] ++ exchange 1 k k craEnv

def slowlyStart : List GAct :=
  [.act (.connect 0 ⟨.cbor, 700, "realm1", anonymousAuthenticator "" none, none⟩ (.int 11)), .inject 0 hostile, .act (.carryUp 0 500),
   .act (.connect 1 ⟨.msgpack, 700, "realm1", wampcraAuthenticator craCrypto "joe" "s" none, none⟩ (.int 12))]

theorem slowly_links : (grun craSetup slowlyStart).links 1 = some ⟨⟨.msgpack, 700, "realm1", wampcraAuthenticator craCrypto "joe" "s" none, none⟩,
    .greeting, .greeting (.int 12), [127, 2, 0, 0], [], [], []⟩ := by rfl

example : ∃ l', (grun craSetup (slowlyStart ++ slowly)).links 1 = some l' ∧ Ended l' :=
  C123_login_ends craSetup slowlyStart slowly 1 _ slowly_links (by simp [slowlyStart, slowly, exchange]) (by simp [slowly, exchange])
    (2 ^ 24 + 4) (2 ^ 24 + 4) (2 ^ 24 + 4) (2 ^ 24 + 4) (2 ^ 24 + 4) (2 ^ 24 + 4) craEnv craEnv craEnv (by simp) (by
      unfold slowly
      exact List.Sublist.append (List.Sublist.trans (List.Sublist.append ((List.sublist_append_right _ _).trans (List.sublist_append_left _ _))
        (List.Sublist.refl _)) (List.sublist_append_left _ _)) (List.Sublist.refl _))

/-- It ends well here. -/
example : (match (grun craSetup (slowlyStart ++ slowly)).links 1 with
    | some l => match l.client, l.router with
      | .session [], .attached .msgpack 12 => true
      | _, _ => false
    | none => false) = true := by decide +kernel

end Wamp.Spec.Stack
