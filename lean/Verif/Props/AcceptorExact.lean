import Verif.Props.Acceptor

/-!
# What an acceptor remembers (C113, and the exact conditions of C55 and C57)

C57 is false of the code for the ABORT sent because the authenticator rejected a request. Here is what holds instead:
`is_aborted()` is True in exactly the other cases, and a rejection leaves no trace at all. The latter is an instance of
C113: only what moves a handshake on has any effect on it.
-/

namespace Wamp.Acceptor
open Spec Spec.Hs
variable (cr : Crypto) (au : Bool) (roles : Option PyDict) (sid : PyInt)

/-- What one message does to the acceptor, unless it moves the handshake on. -/
theorem still (ins : List In) (i : In) (h : ¬ Moves cr (init au roles sid) ins i) :
    (after cr (init au roles sid) (ins ++ [i])) = after cr (init au roles sid) ins ∨
    ((after cr (init au roles sid) ins).state = .none ∧ ∃ x y,
      after cr (init au roles sid) (ins ++ [i]) = { after cr (init au roles sid) ins with authMethod := x, hello := y }) := by
  have hi := inv_after cr au roles sid ins
  rw [after_snoc]
  unfold Moves reply at h
  obtain ⟨env, m⟩ := i
  simp only [not_or] at h ⊢
  obtain ⟨hc, hw, ha, hs⟩ := h
  generalize after cr (init au roles sid) ins = s at *
  unfold receiveMessage at *
  by_cases hwel : s.state = .welcomeSent
  · rw [if_pos hwel]; exact .inl rfl
  rw [if_neg hwel] at *
  cases m
  case hello m =>
    simp only [] at *
    by_cases hn : s.state = .none
    · by_cases hau : s.hasAuthenticator = true
      · rcases receiveHello_cases cr env s m hn hau with ⟨r, h1, h2, h3⟩ | ⟨r, pk, h1, h2, h3, h4, h5⟩ | ⟨r, sec, h1, h2, h3, h4⟩ | ⟨h1, h2⟩ | ⟨h1, h2⟩
        · exact absurd ⟨_, by rw [h3]; rfl⟩ hw
        · exact absurd ⟨_, by rw [h5]⟩ hc
        · exact absurd ⟨_, by rw [h4]⟩ hc
        · exact absurd ⟨_, by rw [h2]⟩ hc
        · exact .inr ⟨hn, _, _, h1⟩
      · have hau : s.hasAuthenticator = false := by simpa using hau
        refine absurd ⟨⟨s.sessionId, s.roles, some "anonymous", some "anonymous", some "anonymous", []⟩, ?_⟩ hw
        unfold receiveHello; rw [if_neg (by simp [hn]), if_pos hau]; rfl
    · refine .inl ?_
      unfold receiveHello; rw [if_pos hn]
  case authenticate m =>
    simp only [] at *
    by_cases hcs : s.state = .challengeSent
    · obtain ⟨env', h', ch', hc', hh, hmeth, hcm, hcase⟩ := (hi.chal hcs).2
      rcases receiveAuthenticate_cases cr _ ins env s m hcs (hi.chal hcs).2 with ⟨_, _, _, _, _, _, _, _, _, h6⟩ | h6 | ⟨h6, _⟩
      · exact absurd ⟨_, by rw [h6]; rfl⟩ hw
      · by_cases ht : ch'.authmethod = "ticket"
        · exfalso
          rw [← hcm, ht] at hmeth
          unfold receiveAuthenticate at h6
          rw [if_neg (by simp [hcs]), hmeth, if_neg (by decide), if_neg (by decide), if_pos rfl, hh] at h6
          simp only [] at h6
          split at h6
          · exact absurd (congrArg (fun p => p.1.state) h6) (by simp [hcs])
          · exact absurd (congrArg (fun p => p.1.state) h6) (by simp [welcome])
        · exact absurd ⟨m, _, env', h', ch', rfl, by rw [h6]; rfl, hc', ht⟩ hs
      · exact .inl h6
    · refine .inl ?_
      unfold receiveAuthenticate; rw [if_pos hcs]
  case abort m => exact absurd ⟨m, rfl⟩ ha
  all_goals exact .inl rfl

/-- The same acceptor, but for a forgotten HELLO. -/
def Alike (s s' : Acceptor) : Prop :=
  s' = s ∨ (s.state ≠ .challengeSent ∧ ∃ x y, s' = { s with authMethod := x, hello := y })

theorem alike_step {s s' : Acceptor} (h : Alike s s') (i : In) :
    (s'.receiveMessage cr i.1 i.2).2 = (s.receiveMessage cr i.1 i.2).2 ∧
    Alike (s.receiveMessage cr i.1 i.2).1 (s'.receiveMessage cr i.1 i.2).1 := by
  rcases h with rfl | ⟨hs, x, y, rfl⟩
  · exact ⟨rfl, .inl rfl⟩
  obtain ⟨env, m⟩ := i
  obtain ⟨hau, r, sid, st, am, he, re, sd, pk, c, se⟩ := s
  simp only at hs
  have same : ∀ t : Acceptor, t.state ≠ .challengeSent → Alike t { t with authMethod := x, hello := y } := fun t h => .inr ⟨h, _, _, rfl⟩
  unfold receiveMessage
  simp only []
  by_cases hwel : st = .welcomeSent
  · rw [if_pos hwel, if_pos hwel]; exact ⟨rfl, same _ hs⟩
  rw [if_neg hwel, if_neg hwel]
  cases m
  case hello m =>
    simp only []
    unfold receiveHello
    by_cases hn : st = .none
    · subst hn
      cases hau
      · exact ⟨rfl, .inr ⟨by simp [welcome], _, _, rfl⟩⟩
      · exact ⟨rfl, .inl rfl⟩
    · rw [if_pos hn, if_pos hn]; exact ⟨rfl, same _ hs⟩
  case authenticate m =>
    simp only []
    unfold receiveAuthenticate
    rw [if_pos hs, if_pos hs]; exact ⟨rfl, same _ hs⟩
  case abort m => exact ⟨rfl, .inr ⟨by simp, _, _, rfl⟩⟩
  all_goals exact ⟨rfl, same _ hs⟩

theorem alike_after {s s' : Acceptor} (h : Alike s s') (post : List In) : Alike (after cr s post) (after cr s' post) := by
  induction post using snoc_induction with
  | nil => exact h
  | snoc post i ih => rw [after_snoc, after_snoc]; exact (alike_step cr ih i).2

theorem after_append (a : Acceptor) (pre post : List In) : after cr a (pre ++ post) = after cr (after cr a pre) post := by
  unfold after; rw [List.foldl_append]

/-! ## C113 -/

/-- Any message that is not answered with a CHALLENGE or WELCOME and is neither an ABORT nor an AUTHENTICATE with a wrong
signature might as well not have been received: every later reply, `is_aborted()` and `get_session_details()` are the same
as without it. -/
theorem C113_no_trace (pre post : List In) (i : In) (h : ¬ Moves cr (init au roles sid) pre i) :
    (∀ j, reply cr (init au roles sid) (pre ++ i :: post) j = reply cr (init au roles sid) (pre ++ post) j) ∧
    isAborted (after cr (init au roles sid) (pre ++ i :: post)) = isAborted (after cr (init au roles sid) (pre ++ post)) ∧
    getSessionDetails (after cr (init au roles sid) (pre ++ i :: post)) =
      getSessionDetails (after cr (init au roles sid) (pre ++ post)) := by
  have base : Alike (after cr (init au roles sid) pre) (after cr (init au roles sid) (pre ++ [i])) := by
    rcases still cr au roles sid pre i h with h | ⟨h, x, y, h'⟩
    · exact .inl h
    · exact .inr ⟨by simp [h], x, y, h'⟩
  have all := alike_after cr base post
  have e : pre ++ i :: post = (pre ++ [i]) ++ post := by simp
  unfold reply
  rw [e, after_append cr _ (pre ++ [i]) post, after_append cr _ pre post]
  refine ⟨fun j => (alike_step cr all j).1, ?_, ?_⟩
  · rcases all with all | ⟨_, x, y, all⟩ <;> rw [all]
    rfl
  · rcases all with all | ⟨_, x, y, all⟩ <;> rw [all]
    rfl

/-- What does move a handshake on: each of the four kinds changes what is answered to something later. A message answered
with a CHALLENGE or WELCOME, an ABORT before any WELCOME and a wrong signature make the acceptor refuse every later HELLO
with ValueError. -/
theorem C113_trace (pre post : List In) (i : In) (h : Moves cr (init au roles sid) pre i) (env : AuthEnv) (hello : Hello) :
    ∃ t, reply cr (init au roles sid) (pre ++ i :: post) (env, .hello hello) = .error (.valueError t) := by
  have stays : ∀ s : Acceptor, s.state ≠ .none → ∀ post : List In, (after cr s post).state ≠ .none := by
    intro s hs post
    induction post using snoc_induction with
    | nil => exact hs
    | snoc post i ih =>
      rw [after_snoc]
      generalize after cr s post = s at *
      obtain ⟨env, m⟩ := i
      unfold receiveMessage
      by_cases hwel : s.state = .welcomeSent
      · rw [if_pos hwel]; exact ih
      rw [if_neg hwel]
      cases m
      case hello m => simp only [receiveHello, if_pos ih]; exact ih
      case authenticate m =>
        simp only [receiveAuthenticate]
        split
        · exact ih
        have wr : s.welcomeResponse.1.state ≠ .none := by unfold welcomeResponse; split <;> simp [welcome]
        repeat' split
        all_goals first | exact ih | exact wr | simp [welcome]
      case abort m => simp
      all_goals exact ih
  have first : (after cr (init au roles sid) (pre ++ [i])).state ≠ .none := by
    have hi := inv_after cr au roles sid pre
    have ho := outcome cr _ pre i _ hi
    rw [after_snoc]
    have hst := state_welcome_iff cr au roles sid pre
    unfold Moves reply at h
    rcases h with ⟨ch, h⟩ | ⟨w, h⟩ | ⟨ab, h⟩ | ⟨m, ab, env, hello, ch, h, h2, h3, h4⟩
    · generalize (after cr (init au roles sid) pre).receiveMessage cr i.1 i.2 = o at *
      cases ho with
      | quiet q => exact absurd h (q.2 _)
      | refused _ q => exact absurd h (q.2 _)
      | aborted _ q => exact absurd h (q.2 _)
      | challenged hs hi ha h1 h2 h3 h4 => simp [h4]
      | welcomed => cases h
    · generalize (after cr (init au roles sid) pre).receiveMessage cr i.1 i.2 = o at *
      cases ho with
      | quiet q => exact absurd h (q.1 _)
      | refused _ q => exact absurd h (q.1 _)
      | aborted _ q => exact absurd h (q.1 _)
      | challenged => cases h
      | welcomed => simp [welcome]
    · rw [h]
      unfold receiveMessage
      split
      · rename_i hw; simp [hw]
      · simp
    · exact stays _ (hi.chalHello _ _ _ h3).2 [i]
  have e : pre ++ i :: post = (pre ++ [i]) ++ post := by simp
  unfold reply
  rw [e, after_append cr _ (pre ++ [i]) post]
  have := stays _ first post
  generalize after cr (after cr (init au roles sid) (pre ++ [i])) post = s at *
  unfold receiveMessage
  split
  · exact ⟨_, rfl⟩
  · simp only [receiveHello, if_pos this]; exact ⟨_, rfl⟩

/-- A rejected HELLO and a stray AUTHENTICATE leave no trace. -/
example : ¬ Moves cr (init true none (.int 7)) [] (rejects, .hello (helloFor "anonymous" [])) := by
  unfold Moves; rintro (⟨_, h⟩ | ⟨_, h⟩ | ⟨_, h⟩ | ⟨_, _, _, _, _, h, _⟩) <;> cases h

example : ¬ Moves cr (init true none (.int 7)) [] (rejects, .authenticate ⟨"x", []⟩) := by
  unfold Moves
  rintro (⟨_, h⟩ | ⟨_, h⟩ | ⟨_, h⟩ | ⟨_, _, _, _, _, _, h, _⟩) <;> cases h

/-- The HELLO that starts a handshake does. -/
example : ∃ i, craStart = [i] ∧ Moves cr (init true none (.int 7)) [] i := ⟨_, rfl, .inl ⟨_, rfl⟩⟩

/-! ## C57 -/

/-- `is_aborted()` is True exactly when an ABORT was received before any WELCOME, or one was sent because a signature did
not verify. -/
theorem C57_aborted_exact (ins : List In) :
    isAborted (after cr (init au roles sid) ins) = true ↔ AbortSeen cr (init au roles sid) ins := by
  constructor
  · intro h
    have h : (after cr (init au roles sid) ins).state = .aborted := by simpa [isAborted] using h
    induction ins using snoc_induction with
    | nil => cases h
    | snoc ins i ih =>
      by_cases hs : (after cr (init au roles sid) ins).state = .aborted
      · obtain ⟨pre, j, post, rfl, hj⟩ := ih (by simp [isAborted, hs]) hs
        exact ⟨pre, j, post ++ [i], by simp, hj⟩
      · by_cases hm : Moves cr (init au roles sid) ins i
        · have hi := inv_after cr au roles sid ins
          have ho := outcome cr _ ins i _ hi
          have hst := state_welcome_iff cr au roles sid ins
          rw [after_snoc] at h
          rcases hm with ⟨ch, hm⟩ | ⟨w, hm⟩ | ⟨ab, hm⟩ | hm
          · unfold reply at hm
            generalize (after cr (init au roles sid) ins).receiveMessage cr i.1 i.2 = o at *
            cases ho with
            | quiet q => exact absurd hm (q.2 _)
            | refused _ q => exact absurd hm (q.2 _)
            | aborted _ q => exact absurd hm (q.2 _)
            | challenged hs hi ha h1 h2 h3 h4 => simp [h4] at h
            | welcomed => cases hm
          · unfold reply at hm
            generalize (after cr (init au roles sid) ins).receiveMessage cr i.1 i.2 = o at *
            cases ho with
            | quiet q => exact absurd hm (q.1 _)
            | refused _ q => exact absurd hm (q.1 _)
            | aborted _ q => exact absurd hm (q.1 _)
            | challenged => cases hm
            | welcomed => cases h
          · refine ⟨ins, i, [], by simp, .inl ⟨⟨ab, hm⟩, fun w hw => ?_⟩⟩
            have := hst.2 ⟨w, hw⟩
            unfold receiveMessage at h
            rw [if_pos this] at h
            exact hs h
          · obtain ⟨m, ab, env, hello, ch, h1, h2, h3, h4⟩ := hm
            exact ⟨ins, i, [], by simp, .inr ⟨m, ab, env, hello, ch, h1, h2, h3, h4⟩⟩
        · rcases still cr au roles sid ins i hm with h' | ⟨_, x, y, h'⟩
          · rw [h'] at h; exact absurd h hs
          · rw [h'] at h; exact absurd h hs
  · exact fun h => (C57_abort_terminal_partial cr au roles sid ins (approves (.plain none none), .goodbye ⟨[], ""⟩) h).1

/-- The other ABORTs, sent because the authenticator rejected a HELLO or a ticket, end nothing: from then on everything is
as if the rejected message had not been received. -/
theorem C57_rejection_forgotten (pre post : List In) (i : In) (ab : Abort)
    (h : reply cr (init au roles sid) pre i = .ok (some (.abort ab)))
    (hr : (∃ hello, i.2 = .hello hello) ∨ ∃ env hello, Challenged cr (init au roles sid) pre env hello ⟨"ticket", []⟩) :
    (∀ j, reply cr (init au roles sid) (pre ++ i :: post) j = reply cr (init au roles sid) (pre ++ post) j) ∧
    isAborted (after cr (init au roles sid) (pre ++ i :: post)) = isAborted (after cr (init au roles sid) (pre ++ post)) := by
  have hm : ¬ Moves cr (init au roles sid) pre i := by
    rintro (⟨_, hm⟩ | ⟨_, hm⟩ | ⟨_, hm⟩ | ⟨_, _, env, hello, ch, hm, _, hc, ht⟩)
    · rw [h] at hm; cases hm
    · rw [h] at hm; cases hm
    · unfold reply receiveMessage at h
      rw [hm] at h
      split at h <;> cases h
    · rcases hr with ⟨_, hr⟩ | ⟨_, _, hr⟩
      · rw [hr] at hm; cases hm
      · exact ht (by rw [(challenged_unique cr hc hr).2.2])
  have := C113_no_trace cr au roles sid pre post i hm
  exact ⟨this.1, this.2.1⟩

/-- A ticket may be tried again and again. -/
example : ∃ ab, reply cr (init true none (.int 7)) [(rejects, .hello (helloFor "ticket" []))] (rejects, .authenticate ⟨"x", []⟩) =
    .ok (some (.abort ab)) := ⟨_, rfl⟩
example : Challenged cr (init true none (.int 7)) [(rejects, .hello (helloFor "ticket" []))] rejects (helloFor "ticket" []) ⟨"ticket", []⟩ :=
  ⟨[], [], rfl, rfl⟩

/-! ## C55 -/

/-- The exact form of C55. Until the handshake is over, the AUTHENTICATE that gets a HELLO challenged by cryptosign its
WELCOME is any that carries a valid signature under the key announced, over whatever: neither the challenge nor its random
bytes occur in the condition. -/
theorem C55_exact (ins : List In) (env now : AuthEnv) (hello : Hello) (ch : Challenge) (a : Authenticate)
    (hc : Challenged cr (init au roles sid) ins env hello ch) (hm : ch.authmethod = "cryptosign")
    (hw : ∀ w, ¬ Emitted cr (init au roles sid) ins w) (hab : ¬ AbortSeen cr (init au roles sid) ins) :
    (∃ w, reply cr (init au roles sid) ins (now, .authenticate a) = .ok (some (.welcome w))) ↔
      ∃ pk pkb signed msg, announcedKey hello = some pk ∧ unhexlifyValue pk = .ok pkb ∧ pkb.length = 32 ∧
        unhexlify a.signature = .ok signed ∧ cr.signOpen pkb signed = some msg := by
  constructor
  · rintro ⟨w, h⟩
    obtain ⟨a', r, pk, pkb, signed, msg, h1, h2, -, h4, h5, h6, h7, -⟩ :=
      C55_cryptosign_welcome_partial cr au roles sid ins (now, .authenticate a) w env hello ch hc hm h
    cases h1
    exact ⟨pk, pkb, signed, msg, h2, h4, h5, h6, h7⟩
  · rintro ⟨pk, pkb, signed, msg, h2, h4, h5, h6, h7⟩
    have hi := inv_after cr au roles sid ins
    have hn := (hi.chalHello _ _ _ hc).2
    have hnw := mt (state_welcome_iff cr au roles sid ins).1 (fun ⟨w, h⟩ => hw w h)
    have hna := mt (C57_aborted_exact cr au roles sid ins).1 hab
    have hcs : (after cr (init au roles sid) ins).state = .challengeSent := by
      have : (after cr (init au roles sid) ins).state ≠ .aborted := by simpa [isAborted] using hna
      generalize (after cr (init au roles sid) ins).state = s at *
      cases s <;> simp_all
    obtain ⟨env', h', ch', hc', hh, hmeth, hcm, hcase⟩ := (hi.chal hcs).2
    obtain ⟨rfl, rfl, rfl⟩ := challenged_unique cr hc hc'
    have ho : offered hello = .str "cryptosign" := by rw [← hcm, hm]
    rcases hcase with ⟨x, _⟩ | ⟨x, _⟩ | ⟨_, r, pk', e1, e2, e3, e4, e5, e6⟩
    · rw [ho] at x; exact absurd x (by decide)
    · rw [ho] at x; exact absurd x (by decide)
    · rw [h2] at e1; injection e1 with e1; subst e1
      have hv := (C66_verify_iff cr a.signature pkb).2 ⟨h5, signed, msg, h6, h7⟩
      refine ⟨⟨(after cr (init au roles sid) ins).sessionId, (after cr (init au roles sid) ins).roles, r.authid, r.authrole, none, []⟩, ?_⟩
      unfold reply receiveMessage
      rw [if_neg hnw]
      simp only []
      unfold receiveAuthenticate
      rw [if_neg (by simp [hcs]), hmeth, ho, if_pos rfl, e5, h4]
      simp only [hv]
      unfold welcomeResponse
      rw [e4, hh]
      rfl

/-- With `toyCrypto`, after a HELLO with its key: a signature over `[9]`, while the challenge is over `[2, 3]`. -/
example : ∃ w, reply toyCrypto (init true none (.int 7)) [(approves (.plain none none),
      .hello (helloFor "cryptosign" [(.str "pubkey", .str (hexlify (toyCrypto.publicKey [])))]))]
    (rejects, .authenticate ⟨hexlify (toyCrypto.sign [] [9] ++ [9]), []⟩) = .ok (some (.welcome w)) := by
  have hc : reply toyCrypto (init true none (.int 7)) [] (approves (.plain none none),
      .hello (helloFor "cryptosign" [(.str "pubkey", .str (hexlify (toyCrypto.publicKey [])))])) =
      .ok (some (.challenge ⟨"cryptosign", [(.str "challenge", .str (hexlify [2, 3]))]⟩)) :=
    (C55_replay toyCrypto none (.int 7) toyCrypto_law (.plain none none) (approves (.plain none none)) rejects
      (helloFor "cryptosign" [(.str "pubkey", .str (hexlify (toyCrypto.publicKey [])))]) [] [9] _ [] rfl rfl rfl rfl).1
  refine (C55_exact toyCrypto true none (.int 7) _ _ rejects _ _ ⟨hexlify (toyCrypto.sign [] [9] ++ [9]), []⟩ ⟨[], [], rfl, hc⟩ rfl ?_ ?_).2
    ⟨_, toyCrypto.publicKey [], _, [9], rfl, unhexlify_hexlify _, toyCrypto_law.key_length _, unhexlify_hexlify _,
      toyCrypto_law.open_sign ..⟩
  · rintro w ⟨pre, j, post, hj, hr⟩
    cases pre with
    | nil => injection hj with hj; subst hj; rw [hc] at hr; cases hr
    | cons x pre => simp at hj
  · rintro ⟨pre, j, post, hj, hr⟩
    cases pre with
    | nil =>
      injection hj with hj; subst hj
      rcases hr with ⟨⟨_, hr⟩, -⟩ | ⟨_, _, _, _, _, hr, -⟩ <;> cases hr
    | cons x pre => simp at hj

end Wamp.Acceptor
