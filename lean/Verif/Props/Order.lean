import Verif.Spec.Order
import Verif.Props.Members

/-!
# C131: only the order at the router and the order at each client make a difference
-/

namespace Wamp.Spec.Stack
open RawSocket Net

variable {r : Setup}

theorem readOne_longer {b rest : Bytes} {x : Frame} (t : Bytes) (h : readOne b = some (x, rest)) : readOne (b ++ t) = some (x, rest ++ t) := by
  obtain ⟨hf, hd, h1, -, rfl⟩ := readOne_some h
  rw [List.append_assoc]
  exact readOne_append hf h1 _

/-! ## Events at clients -/

/-- Which client an event happens at, and at no other place -/
def ofClient : GAct → Option Nat
  | .act (.connect c _ _) | .act (.hear c) | .act (.send c _) | .inject c _ => some c
  | _ => none

/-- What such an event makes of the client's connection -/
def onLink : GAct → Option Link → Option Link
  | .act (.connect _ cfg sid), none =>
    match sendHandshake ⟨cfg.format.type, cfg.size⟩ with
    | .ok b => some { config := cfg, router := .greeting sid, up := b }
    | .error _ => none
  | .act (.hear _), some l => some l.hear
  | .act (.send _ m), some l => some (l.send m)
  | .inject _ b, some l => some { l with up := l.up ++ b }
  | _, o => o

theorem ext_links {n n' : Stack} (h1 : n.broker = n'.broker) (h2 : n.dealer = n'.dealer) (h3 : ∀ c, n.links c = n'.links c) : n = n' := by
  cases n; cases n'
  simp only at h1 h2 h3
  subst h1 h2
  congr 1
  exact funext h3

theorem set_same (n : Stack) (c : Nat) : n.set c (n.links c) = n := by
  refine ext_links rfl rfl fun c' => ?_
  rw [set_links]
  split
  · rename_i e; rw [e]
  · rfl

theorem gstep_client (n : Stack) {a : GAct} {c : Nat} (h : ofClient a = some c) : n.gstep r a = n.set c (onLink a (n.links c)) := by
  have same : ∀ o, n.links c = o → n = n.set c o := fun o e => by rw [← e, set_same]
  cases a with
  | inject c' b =>
    cases h
    simp only [Stack.gstep]
    split
    · rename_i e; rw [e]; exact same _ e
    · rename_i l e; rw [e]; rfl
  | act a =>
    cases a with
    | connect c' cfg sid =>
      cases h
      simp only [Stack.gstep, Stack.step]
      split
      · rename_i e1 e2; rw [e1]; simp only [onLink, e2]
      · rename_i hh
        cases e1 : n.links c with
        | some l => exact same _ e1
        | none =>
          simp only [onLink]
          cases e2 : sendHandshake ⟨cfg.format.type, cfg.size⟩ with
          | ok b => exact absurd e2 (hh b e1)
          | error e => exact same _ e1
    | hear c' =>
      cases h
      simp only [Stack.gstep, Stack.step]
      split
      · rename_i e; rw [e]; exact same _ e
      · rename_i l e; rw [e]; rfl
    | send c' m =>
      cases h
      simp only [Stack.gstep, Stack.step]
      split
      · rename_i e; rw [e]; exact same _ e
      · rename_i l e; rw [e]; rfl
    | carryUp c' k => cases h
    | carryDown c' k => cases h
    | serve c' env => cases h
    | drop c' => cases h

/-- What an event at a client does to its connection when it is there: it uses bytes that have arrived, writes some, and changes the
client's state, in the same way whatever else is on its way or arrives. -/
theorem onLink_form {n : Stack} {a : GAct} {c : Nat} {l : Link} (ha : ofClient a = some c) (hi : n.idle a = false) (hl : n.links c = some l) :
    ∃ X rd z, ∀ (l' : Link) (t : Bytes), l'.config = l.config → l'.client = l.client → l'.downHas = l.downHas ++ t →
      onLink a (some l') = some { l' with client := X, downHas := rd ++ t, up := l'.up ++ z } := by
  have stay : onLink a = id ∨ (∀ l', onLink a (some l') = some l') → ∃ X rd z, ∀ (l' : Link) (t : Bytes), l'.config = l.config → l'.client = l.client → l'.downHas = l.downHas ++ t →
      onLink a (some l') = some { l' with client := X, downHas := rd ++ t, up := l'.up ++ z } := by
    intro h
    refine ⟨l.client, l.downHas, [], fun l' t h1 h2 h3 => ?_⟩
    have : onLink a (some l') = some l' := by
      rcases h with h | h
      · rw [h]; rfl
      · exact h l'
    rw [this, ← h2, ← h3, List.append_nil]
  cases a with
  | inject c' b =>
    refine ⟨l.client, l.downHas, b, fun l' t h1 h2 h3 => ?_⟩
    simp only [onLink]
    rw [← h2, ← h3]
  | act a =>
    cases a with
    | connect c' cfg sid => exact stay (.inr fun l' => rfl)
    | carryUp c' k => cases ha
    | carryDown c' k => cases ha
    | serve c' env => cases ha
    | drop c' => cases ha
    | send c' m =>
      cases hc : l.client with
      | session calls =>
        obtain ⟨z, hz⟩ : ∃ z, ∀ up : Bytes, (match WAMPSession.outcome l.config.format.wire calls (.sendMessage m) with
            | .ok (.data w) => up ++ frame w
            | _ => up) = up ++ z := by
          split
          · exact ⟨_, fun _ => rfl⟩
          · exact ⟨[], fun _ => (List.append_nil _).symm⟩
        refine ⟨.session (calls ++ [.sendMessage m]), l.downHas, z, fun l' t h1 h2 h3 => ?_⟩
        simp only [onLink, Link.send, h2, h1, h3]
        rw [← hz l'.up]
        rfl
      | _ =>
        refine ⟨l.client, l.downHas, [], fun l' t h1 h2 h3 => ?_⟩
        simp only [onLink, Link.send, h2]
        rw [← h3, List.append_nil, hc, ← h2]
    | hear c' =>
      cases ha
      simp only [Stack.idle, hl] at hi
      cases hc : l.client with
      | failed => rw [hc] at hi; cases hi
      | greeting =>
        rw [hc] at hi
        simp only [decide_eq_false_iff_not] at hi
        have key : ∀ t, (l.downHas ++ t).take 4 = l.downHas.take 4 ∧ (l.downHas ++ t).drop 4 = l.downHas.drop 4 ++ t ∧ ¬ (l.downHas ++ t).length < 4 := by
          intro t
          refine ⟨List.take_append_of_le_length (by omega), List.drop_append_of_le_length (by omega), ?_⟩
          rw [List.length_append]; omega
        cases h1 : receiveHandshake (l.downHas.take 4) with
        | error e =>
          refine ⟨.failed, l.downHas.drop 4, [], fun l' t g1 g2 g3 => ?_⟩
          obtain ⟨k1, k2, k3⟩ := key t
          simp only [onLink, Link.hear, g2, g3, k1, k2, k3, h1, if_false, List.append_nil]
        | ok hs =>
          rcases h2 : (Joiner.init l.config.realm).sendHello l.config.format.wire l.config.authenticator l.config.roles with ⟨j, _ | b⟩
          · refine ⟨.failed, l.downHas.drop 4, [], fun l' t g1 g2 g3 => ?_⟩
            obtain ⟨k1, k2, k3⟩ := key t
            simp only [onLink, Link.hear, g1, g2, g3, k1, k2, k3, h1, h2, if_false, List.append_nil]
          · by_cases hb : b.length < 2 ^ 24
            · refine ⟨.joining j, l.downHas.drop 4, frame b, fun l' t g1 g2 g3 => ?_⟩
              obtain ⟨k1, k2, k3⟩ := key t
              simp only [onLink, Link.hear, g1, g2, g3, k1, k2, k3, h1, h2, hb, if_true, if_false]
            · refine ⟨.failed, l.downHas.drop 4, [], fun l' t g1 g2 g3 => ?_⟩
              obtain ⟨k1, k2, k3⟩ := key t
              simp only [onLink, Link.hear, g1, g2, g3, k1, k2, k3, h1, h2, hb, if_false, List.append_nil]
      | joining j =>
        rw [hc] at hi
        cases hr : readOne l.downHas with
        | none => rw [hr] at hi; cases hi
        | some z =>
          obtain ⟨x, rest⟩ := z
          rcases h1 : j.receive l.config.format.wire l.config.authenticator x.payload with ⟨j', _ | _ | b⟩
          · refine ⟨.failed, rest, [], fun l' t g1 g2 g3 => ?_⟩
            have k := readOne_longer t hr
            rw [← g3] at k
            simp only [onLink, Link.hear, g1, g2, k, h1, List.append_nil]
          · cases h2 : j'.getSessionDetails with
            | error e =>
              refine ⟨.joining j', rest, [], fun l' t g1 g2 g3 => ?_⟩
              have k := readOne_longer t hr
              rw [← g3] at k
              simp only [onLink, Link.hear, g1, g2, k, h1, h2, List.append_nil]
            | ok d =>
              refine ⟨.session [], rest, [], fun l' t g1 g2 g3 => ?_⟩
              have k := readOne_longer t hr
              rw [← g3] at k
              simp only [onLink, Link.hear, g1, g2, k, h1, h2, List.append_nil]
          · by_cases hb : b.length < 2 ^ 24
            · refine ⟨.joining j', rest, frame b, fun l' t g1 g2 g3 => ?_⟩
              have k := readOne_longer t hr
              rw [← g3] at k
              simp only [onLink, Link.hear, g1, g2, k, h1, hb, if_true]
            · refine ⟨.failed, rest, [], fun l' t g1 g2 g3 => ?_⟩
              have k := readOne_longer t hr
              rw [← g3] at k
              simp only [onLink, Link.hear, g1, g2, k, h1, hb, if_false, List.append_nil]
      | session calls =>
        rw [hc] at hi
        cases hr : readOne l.downHas with
        | none => rw [hr] at hi; cases hi
        | some z =>
          obtain ⟨x, rest⟩ := z
          refine ⟨.session (calls ++ [.receive x.payload]), rest, [], fun l' t g1 g2 g3 => ?_⟩
          have k := readOne_longer t hr
          rw [← g3] at k
          simp only [onLink, Link.hear, g2, k, List.append_nil]

/-! ## Events at the router -/

theorem push_nil (n : Stack) : n.push [] = n := by
  refine ext_links rfl rfl fun c => ?_
  rw [push_links]
  cases n.links c with
  | none => rfl
  | some l =>
    simp only [Option.map_some, Link.push]
    split
    · simp [inbox, stream]
    · rfl

/-- What the router does when it uses what has arrived, in the same way whatever else is on its way or arrives -/
theorem serve_form {n : Stack} {c : Nat} {l : Link} {env : AuthEnv} (hl : n.links c = some l) (hi : n.idle (.act (.serve c env)) = false) :
    ∃ R rest z bops dops out, ∀ (n' : Stack) (l' : Link) (t : Bytes), n'.broker = n.broker → n'.dealer = n.dealer → n'.links c = some l' → l'.router = l.router →
      l'.upHas = l.upHas ++ t →
      n'.gstep r (.act (.serve c env)) = (({ n' with broker := n.broker ++ bops, dealer := n.dealer ++ dops } : Stack).set c
        (some { l' with router := R, upHas := rest ++ t, down := l'.down ++ z })).push out := by
  have plain : ∀ R rest z, (∀ (n' : Stack) (l' : Link) (t : Bytes), n'.broker = n.broker → n'.dealer = n.dealer → n'.links c = some l' → l'.router = l.router →
      l'.upHas = l.upHas ++ t → n'.gstep r (.act (.serve c env)) = n'.set c (some { l' with router := R, upHas := rest ++ t, down := l'.down ++ z })) →
      ∃ R rest z bops dops out, ∀ (n' : Stack) (l' : Link) (t : Bytes), n'.broker = n.broker → n'.dealer = n.dealer → n'.links c = some l' → l'.router = l.router →
      l'.upHas = l.upHas ++ t →
      n'.gstep r (.act (.serve c env)) = (({ n' with broker := n.broker ++ bops, dealer := n.dealer ++ dops } : Stack).set c
        (some { l' with router := R, upHas := rest ++ t, down := l'.down ++ z })).push out := by
    intro R rest z h
    refine ⟨R, rest, z, [], [], [], fun n' l' t h1 h2 h3 h4 h5 => ?_⟩
    rw [h n' l' t h1 h2 h3 h4 h5, push_nil, List.append_nil, List.append_nil, ← h1, ← h2]
  simp only [Stack.idle, hl] at hi
  cases hr : l.router with
  | closed => rw [hr] at hi; cases hi
  | greeting sid =>
    rw [hr] at hi
    simp only [decide_eq_false_iff_not] at hi
    have key : ∀ t, (l.upHas ++ t).take 4 = l.upHas.take 4 ∧ (l.upHas ++ t).drop 4 = l.upHas.drop 4 ++ t ∧ ¬ (l.upHas ++ t).length < 4 := by
      intro t
      refine ⟨List.take_append_of_le_length (by omega), List.drop_append_of_le_length (by omega), ?_⟩
      rw [List.length_append]; omega
    have away : (∀ (l' : Link) (t : Bytes), l'.router = l.router → l'.upHas = l.upHas ++ t → l'.greet r sid = { l' with router := .closed, upHas := l'.upHas.drop 4 }) →
        ∀ (n' : Stack) (l' : Link) (t : Bytes), n'.broker = n.broker → n'.dealer = n.dealer → n'.links c = some l' → l'.router = .greeting sid →
        l'.upHas = l.upHas ++ t → n'.gstep r (.act (.serve c env)) =
          n'.set c (some { l' with router := .closed, upHas := l.upHas.drop 4 ++ t, down := l'.down ++ [] }) := by
      intro h n' l' t h1 h2 h3 h4 h5
      obtain ⟨k1, k2, k3⟩ := key t
      simp only [Stack.gstep, Stack.step, h3, Stack.serve, h4]
      rw [h l' t (by rw [h4, hr]) h5, h5, k2, List.append_nil]
    rw [hr] at plain
    cases h1 : receiveHandshake (l.upHas.take 4) with
    | error e =>
      refine plain _ _ _ (away fun l' t g1 g2 => ?_)
      obtain ⟨k1, k2, k3⟩ := key t
      simp only [Link.greet, g2, k1, k3, h1, if_false]
    | ok hs =>
      cases h2 : formatOfType hs.protocol with
      | none =>
        refine plain _ _ _ (away fun l' t g1 g2 => ?_)
        obtain ⟨k1, k2, k3⟩ := key t
        simp only [Link.greet, g2, k1, k3, h1, h2, if_false]
      | some f =>
        cases h3 : sendHandshake ⟨f.type, r.size⟩ with
        | error e =>
          refine plain _ _ _ (away fun l' t g1 g2 => ?_)
          obtain ⟨k1, k2, k3⟩ := key t
          simp only [Link.greet, g2, k1, k3, h1, h2, h3, if_false]
        | ok b =>
          refine plain (.accepting f (Acceptor.init r.hasAuthenticator r.roles sid)) (l.upHas.drop 4) b fun n' l' t g1 g2 g3 g4 g5 => ?_
          obtain ⟨k1, k2, k3⟩ := key t
          simp only [Stack.gstep, Stack.step, g3, Stack.serve, g4, Link.greet, g5, k1, k2, k3, h1, h2, h3, if_false]
  | accepting f a =>
    rw [hr] at hi plain
    cases h1 : readOne l.upHas with
    | none => rw [h1] at hi; cases hi
    | some z =>
      obtain ⟨x, rest⟩ := z
      cases h2 : verdict r f a env x.payload with
      | away b =>
        refine plain .closed rest b fun n' l' t g1 g2 g3 g4 g5 => ?_
        have k := readOne_longer t h1
        rw [← g5] at k
        simp only [Stack.gstep, Stack.step, g3, Stack.serve, g4, k, h2]
      | more a' b =>
        refine plain (.accepting f a') rest b fun n' l' t g1 g2 g3 g4 g5 => ?_
        have k := readOne_longer t h1
        rw [← g5] at k
        simp only [Stack.gstep, Stack.step, g3, Stack.serve, g4, k, h2]
      | welcome d b =>
        by_cases hj : returned (Broker.outcome n.broker (.addSession d)) ∧ returned (Dealer.outcome n.dealer (.addSession d))
        · refine ⟨.attached f d.sessionId.val, rest, b, [.addSession d], [.addSession d], [], fun n' l' t g1 g2 g3 g4 g5 => ?_⟩
          have k := readOne_longer t h1
          rw [← g5] at k
          rw [push_nil]
          simp only [Stack.gstep, Stack.step, g3, Stack.serve, g4, k, h2, g1, g2]
          rw [if_pos hj]
        · refine ⟨.closed, rest, [], [.addSession d], [.addSession d], [], fun n' l' t g1 g2 g3 g4 g5 => ?_⟩
          have k := readOne_longer t h1
          rw [← g5] at k
          rw [push_nil, List.append_nil]
          simp only [Stack.gstep, Stack.step, g3, Stack.serve, g4, k, h2, g1, g2]
          rw [if_neg hj]
  | attached f s =>
    rw [hr] at hi plain
    cases h1 : readOne l.upHas with
    | none => rw [h1] at hi; cases hi
    | some z =>
      obtain ⟨x, rest⟩ := z
      cases h2 : f.wire.deserialize x.payload with
      | error e =>
        refine plain (.attached f s) rest [] fun n' l' t g1 g2 g3 g4 g5 => ?_
        have k := readOne_longer t h1
        rw [← g5] at k
        simp only [Stack.gstep, Stack.step, g3, Stack.serve, k, h2, g4, List.append_nil]
      | ok m =>
        cases h3 : brokerCall s m with
        | some op =>
          refine ⟨.attached f s, rest, [], [op], [], brokerOut (Broker.outcome n.broker op), fun n' l' t g1 g2 g3 g4 g5 => ?_⟩
          have k := readOne_longer t h1
          rw [← g5] at k
          simp only [Stack.gstep, Stack.step, g3, Stack.serve, k, h2, g4, List.append_nil, Stack.handle, h3, ← g1, ← g2]
          rfl
        | none =>
          cases h4 : dealerCall s m with
          | some op =>
            refine ⟨.attached f s, rest, [], [], [op], dealerOut (Dealer.outcome n.dealer op), fun n' l' t g1 g2 g3 g4 g5 => ?_⟩
            have k := readOne_longer t h1
            rw [← g5] at k
            simp only [Stack.gstep, Stack.step, g3, Stack.serve, k, h2, g4, List.append_nil, Stack.handle, h3, h4, ← g1, ← g2]
            rfl
          | none =>
            refine plain (.attached f s) rest [] fun n' l' t g1 g2 g3 g4 g5 => ?_
            have k := readOne_longer t h1
            rw [← g5] at k
            simp only [Stack.gstep, Stack.step, g3, Stack.serve, k, h2, g4, List.append_nil, Stack.handle, h3, h4]

/-! ## Bytes that have not arrived yet -/

theorem arrived_set (n : Stack) (c : Nat) (o : Option Link) : (n.set c o).arrived = n.arrived.set c (o.map Link.arrived) := by
  refine ext_links rfl rfl fun c' => ?_
  simp only [Stack.arrived, set_links]
  split <;> rfl

theorem arrived_links (n : Stack) (c : Nat) : n.arrived.links c = (n.links c).map Link.arrived := rfl

theorem arrived_twice (n : Stack) : n.arrived.arrived = n.arrived := by
  refine ext_links rfl rfl fun c => ?_
  simp only [Stack.arrived]
  cases n.links c with
  | none => rfl
  | some l => simp [Link.arrived]

theorem push_arrived (n : Stack) (out : List (Int × Message)) : (n.push out).arrived = (n.arrived.push out).arrived := by
  refine ext_links rfl rfl fun c => ?_
  simp only [Stack.arrived, push_links]
  cases n.links c with
  | none => rfl
  | some l =>
    simp only [Option.map_some, Link.push, Link.arrived]
    split <;> simp_all

theorem idle_arrived {n : Stack} {a : GAct} (h : n.idle a = false) : n.arrived.idle a = false := by
  cases a with
  | inject c b => rfl
  | act a =>
    cases a with
    | serve c env =>
      cases hl : n.links c with
      | none => simp [Stack.idle, hl] at h
      | some l =>
        simp only [Stack.idle, hl, arrived_links, Option.map_some] at h ⊢
        have e : l.arrived.router = l.router := rfl
        rw [e]
        cases hr : l.router with
        | greeting sid =>
          rw [hr] at h
          simp only [Link.arrived, decide_eq_false_iff_not, List.length_append] at h ⊢
          omega
        | closed => rw [hr] at h; cases h
        | accepting f a => rw [hr] at h; exact readOne_more _ h
        | attached f s => rw [hr] at h; exact readOne_more _ h
    | hear c =>
      cases hl : n.links c with
      | none => simp [Stack.idle, hl] at h
      | some l =>
        simp only [Stack.idle, hl, arrived_links, Option.map_some] at h ⊢
        have e : l.arrived.client = l.client := rfl
        rw [e]
        cases hr : l.client with
        | greeting =>
          rw [hr] at h
          simp only [Link.arrived, decide_eq_false_iff_not, List.length_append] at h ⊢
          omega
        | failed => rw [hr] at h; cases h
        | joining j => rw [hr] at h; exact readOne_more _ h
        | session calls => rw [hr] at h; exact readOne_more _ h
    | carryUp c k => cases h
    | carryDown c k => cases h
    | connect c cfg sid => rfl
    | send c m => rfl
    | drop c => rfl

/-- That all bytes have arrived already makes no difference, but for the bytes that still are on their way. -/
theorem gstep_arrived {n : Stack} {a : GAct} (h : n.idle a = false) : (n.gstep r a).arrived = (n.arrived.gstep r a).arrived := by
  cases hc : ofClient a with
  | some c =>
    rw [gstep_client n hc, gstep_client n.arrived hc, arrived_set, arrived_set, arrived_twice, arrived_links]
    congr 1
    cases hl : n.links c with
    | none =>
      simp only [Option.map_none]
    | some l =>
      obtain ⟨X, rd, z, hf⟩ := onLink_form hc h hl
      simp only [Option.map_some]
      rw [hf l [] rfl rfl (by simp), hf l.arrived l.down rfl rfl rfl]
      simp [Link.arrived]
  | none =>
    cases a with
    | inject c b => cases hc
    | act a =>
      cases a with
      | connect c cfg sid => cases hc
      | hear c => cases hc
      | send c m => cases hc
      | carryUp c k => cases h
      | carryDown c k => cases h
      | drop c =>
        simp only [Stack.gstep, Stack.step, arrived_links]
        cases hl : n.links c with
        | none => simp only [Option.map_none]; rw [arrived_twice]
        | some l =>
          simp only [Option.map_some]
          have e : l.arrived.router = l.router := rfl
          rw [e]
          split
          · rw [arrived_set, arrived_set]
            congr 1
            exact (arrived_twice { n with broker := _, dealer := _ }).symm
          · rw [arrived_set, arrived_set, arrived_twice]
      | serve c env =>
        cases hl : n.links c with
        | none => simp [Stack.idle, hl] at h
        | some l =>
          obtain ⟨R, rest, z, bops, dops, out, hf⟩ := serve_form (r := r) hl h
          rw [hf n l [] rfl rfl hl rfl (by simp), hf n.arrived l.arrived l.up rfl rfl (by rw [arrived_links, hl]; rfl) rfl rfl]
          rw [push_arrived, push_arrived (Stack.set _ _ _), arrived_set, arrived_set]
          congr 2
          rw [show ({ n.arrived with broker := n.broker ++ bops, dealer := n.dealer ++ dops } : Stack).arrived =
            ({ n with broker := n.broker ++ bops, dealer := n.dealer ++ dops } : Stack).arrived from arrived_twice { n with broker := _, dealer := _ }]
          simp [Link.arrived]

theorem idle_carries {n : Stack} {a : GAct} (h : n.idle a = true) : (n.gstep r a).arrived = n.arrived := by
  cases a with
  | inject c b => cases h
  | act a =>
    cases a with
    | connect c cfg sid => cases h
    | send c m => cases h
    | drop c => cases h
    | carryUp c k =>
      simp only [Stack.gstep, Stack.step]
      split
      · rfl
      · rename_i l hl
        rw [arrived_set]
        have : (some { l with up := l.up.drop k, upHas := l.upHas ++ l.up.take k } : Option Link).map Link.arrived = n.arrived.links c := by
          rw [arrived_links, hl]; simp [Link.arrived]
        rw [this, set_same]
    | carryDown c k =>
      simp only [Stack.gstep, Stack.step]
      split
      · rfl
      · rename_i l hl
        rw [arrived_set]
        have : (some { l with down := l.down.drop k, downHas := l.downHas ++ l.down.take k } : Option Link).map Link.arrived = n.arrived.links c := by
          rw [arrived_links, hl]; simp [Link.arrived]
        rw [this, set_same]
    | hear c =>
      simp only [Stack.gstep, Stack.step]
      split
      · rfl
      · rename_i l hl
        have : l.hear = l := by
          simp only [Stack.idle, hl] at h
          unfold Link.hear
          cases hc : l.client with
          | greeting => rw [hc] at h; simp only [decide_eq_true_eq] at h; simp only; rw [if_pos h]
          | failed => rfl
          | joining j => rw [hc] at h; simp only [Option.isNone_iff_eq_none] at h; simp only [h]
          | session calls => rw [hc] at h; simp only [Option.isNone_iff_eq_none] at h; simp only [h]
        rw [this, ← hl, set_same]
    | serve c env =>
      simp only [Stack.gstep, Stack.step]
      split
      · rfl
      · rename_i l hl
        simp only [Stack.idle, hl] at h
        unfold Stack.serve
        cases hc : l.router with
        | greeting sid =>
          rw [hc] at h; simp only [decide_eq_true_eq] at h
          simp only [Link.greet]; rw [if_pos h, ← hl, set_same]
        | closed => rfl
        | accepting f a => rw [hc] at h; simp only [Option.isNone_iff_eq_none] at h; simp only [h]
        | attached f s => rw [hc] at h; simp only [Option.isNone_iff_eq_none] at h; simp only [h]

/-! ## Events at different places -/

/-- They do not happen at the same place. -/
def Elsewhere (a b : GAct) : Prop := ∀ p, takesPart p a = true → takesPart p b = false

theorem Elsewhere.symm {a b : GAct} (h : Elsewhere a b) : Elsewhere b a := fun p hb => by
  cases ha : takesPart p a with
  | false => rfl
  | true => rw [h p ha] at hb; cases hb

/-- An event, unless only bytes move, happens at a client, or is the router's. -/
theorem place {n : Stack} {a : GAct} (h : n.idle a = false) :
    (∃ c, ofClient a = some c ∧ ∀ p, takesPart p a = true ↔ p = some c) ∨
    (∃ c env, a = .act (.serve c env)) ∨ ∃ c, a = .act (.drop c) := by
  cases a with
  | inject c b => exact .inl ⟨c, rfl, fun p => by cases p <;> simp [takesPart]⟩
  | act a =>
    cases a with
    | connect c cfg sid => exact .inl ⟨c, rfl, fun p => by cases p <;> simp [takesPart]⟩
    | hear c => exact .inl ⟨c, rfl, fun p => by cases p <;> simp [takesPart]⟩
    | send c m => exact .inl ⟨c, rfl, fun p => by cases p <;> simp [takesPart]⟩
    | carryUp c k => cases h
    | carryDown c k => cases h
    | serve c env => exact .inr (.inl ⟨c, env, rfl⟩)
    | drop c => exact .inr (.inr ⟨c, rfl⟩)

theorem set_comm (n : Stack) {c c' : Nat} (h : c ≠ c') (o o' : Option Link) : (n.set c o).set c' o' = (n.set c' o').set c o := by
  refine ext_links rfl rfl fun x => ?_
  simp only [set_links]
  split
  · rename_i e; subst e; rw [if_neg (Ne.symm h)]
  · rfl

theorem set_other {n : Stack} {c c' : Nat} (h : c ≠ c') (o : Option Link) : (n.set c o).links c' = n.links c' := by
  rw [set_links, if_neg (Ne.symm h)]

/-- What it does to a connection the router writes to at the same time -/
theorem onLink_push {n : Stack} {a : GAct} {c : Nat} (ha : ofClient a = some c) (hi : n.idle a = false) (out : List (Int × Message)) :
    onLink a ((n.links c).map (Link.push out)) = (onLink a (n.links c)).map (Link.push out) := by
  cases hl : n.links c with
  | none =>
    cases a with
    | inject c' b => rfl
    | act a =>
      cases a with
      | connect c' cfg sid =>
        simp only [Option.map_none, onLink]
        split <;> rfl
      | hear c' => rfl
      | send c' m => rfl
      | carryUp c' k => cases ha
      | carryDown c' k => cases ha
      | serve c' env => cases ha
      | drop c' => cases ha
  | some l =>
    obtain ⟨X, rd, z, hf⟩ := onLink_form ha hi hl
    have e1 : (l.push out).config = l.config ∧ (l.push out).client = l.client ∧ (l.push out).downHas = l.downHas := by
      unfold Link.push; split <;> exact ⟨rfl, rfl, rfl⟩
    simp only [Option.map_some]
    rw [hf l [] rfl rfl (by simp), hf (l.push out) [] e1.1 e1.2.1 (by rw [e1.2.2]; simp)]
    simp only [Option.map_some, Link.push]
    congr 1
    split <;> simp_all

theorem push_set (n : Stack) (c : Nat) (o : Option Link) (out : List (Int × Message)) :
    (n.set c o).push out = (n.push out).set c (o.map (Link.push out)) := by
  refine ext_links rfl rfl fun x => ?_
  simp only [push_links, set_links]
  split <;> rfl

theorem set_set (n : Stack) (c : Nat) (o o' : Option Link) : (n.set c o).set c o' = n.set c o' := by
  refine ext_links rfl rfl fun x => ?_
  simp only [set_links]
  split <;> rfl

theorem idle_serve {n n' : Stack} {c : Nat} {l l' : Link} {env : AuthEnv} (h : n.idle (.act (.serve c env)) = false) (hl : n.links c = some l)
    (hl' : n'.links c = some l') (h1 : l'.router = l.router) (h2 : l'.upHas = l.upHas) : n'.idle (.act (.serve c env)) = false := by
  simp only [Stack.idle, hl, hl', h1, h2] at h ⊢
  exact h

theorem idle_client {n n' : Stack} {a : GAct} {c : Nat} (ha : ofClient a = some c) (h : n.idle a = false)
    (hl : ∀ l, n.links c = some l → ∃ l', n'.links c = some l' ∧ l'.client = l.client ∧ l'.downHas = l.downHas) : n'.idle a = false := by
  cases a with
  | inject c' b => rfl
  | act a =>
    cases a with
    | hear c' =>
      cases ha
      cases e : n.links c with
      | none => simp [Stack.idle, e] at h
      | some l =>
        obtain ⟨l', g1, g2, g3⟩ := hl l e
        simp only [Stack.idle, e, g1, g2, g3] at h ⊢
        exact h
    | connect c' cfg sid => rfl
    | send c' m => rfl
    | carryUp c' k => cases ha
    | carryDown c' k => cases ha
    | serve c' env => cases ha
    | drop c' => cases ha

theorem push_same (out : List (Int × Message)) (l : Link) : (l.push out).config = l.config ∧ (l.push out).client = l.client ∧
    (l.push out).downHas = l.downHas := by
  unfold Link.push; split <;> exact ⟨rfl, rfl, rfl⟩

/-- The router and a client act at the same time. -/
theorem commute_serve {n : Stack} {a : GAct} {c c' : Nat} {env : AuthEnv} (ha : ofClient a = some c) (hi : n.idle a = false)
    (hj : n.idle (.act (.serve c' env)) = false) :
    (n.gstep r a).gstep r (.act (.serve c' env)) = (n.gstep r (.act (.serve c' env))).gstep r a ∧
      (n.gstep r a).idle (.act (.serve c' env)) = false ∧ (n.gstep r (.act (.serve c' env))).idle a = false := by
  obtain ⟨l, hl⟩ : ∃ l, n.links c' = some l := by
    cases hl : n.links c' with
    | none => simp [Stack.idle, hl] at hj
    | some l => exact ⟨l, rfl⟩
  obtain ⟨R, rest, z, bops, dops, out, hf⟩ := serve_form (r := r) hl hj
  have h1 := hf n l [] rfl rfl hl rfl (by simp)
  rw [gstep_client _ ha, gstep_client _ ha]
  have hlc : (n.gstep r (.act (.serve c' env))).links c = if c = c' then
      some (Link.push out { l with router := R, upHas := rest ++ [], down := l.down ++ z }) else (n.links c).map (Link.push out) := by
    rw [h1, push_links, set_links]
    split <;> rfl
  by_cases e : c = c'
  · subst e
    rw [if_pos rfl] at hlc
    obtain ⟨X, rd, y, hg⟩ := onLink_form ha hi hl
    have h2 := hg l [] rfl rfl (by simp)
    have h4 : (n.set c (onLink a (n.links c))).links c = some { l with client := X, downHas := rd ++ [], up := l.up ++ y } := by
      rw [set_links, if_pos rfl, hl]; exact h2
    have h3 := hf (n.set c (onLink a (n.links c))) { l with client := X, downHas := rd ++ [], up := l.up ++ y } [] rfl rfl h4 rfl (by simp)
    obtain ⟨e1, e2, e3⟩ := push_same out { l with router := R, upHas := rest ++ [], down := l.down ++ z }
    refine ⟨?_, idle_serve hj hl h4 rfl rfl, ?_⟩
    · rw [h3, hlc, hg _ [] e1 e2 (by rw [e3]; simp), h1]
      refine ext_links rfl rfl fun x => ?_
      simp only [set_links, push_links]
      split
      · simp only [Option.map_some, Link.push]
        congr 1
        split <;> simp_all
      · rfl
    · refine idle_client ha hi fun l0 h0 => ?_
      rw [hl] at h0; cases h0
      exact ⟨_, hlc, e2, e3⟩
  · rw [if_neg e] at hlc
    have h4 : (n.set c (onLink a (n.links c))).links c' = some l := by rw [set_other e, hl]
    have h3 := hf (n.set c (onLink a (n.links c))) l [] rfl rfl h4 rfl (by simp)
    refine ⟨?_, idle_serve hj hl h4 rfl rfl, ?_⟩
    · rw [h3, hlc, onLink_push ha hi, h1]
      refine ext_links rfl rfl fun x => ?_
      simp only [set_links, push_links]
      by_cases hx : x = c
      · subst hx; rw [if_neg e]; simp
      · simp only [if_neg hx]
    · refine idle_client ha hi fun l0 h0 => ?_
      rw [h0] at hlc
      obtain ⟨e1, e2, e3⟩ := push_same out l0
      exact ⟨_, hlc, e2, e3⟩

/-- Events at different places can happen in either order. -/
theorem commute {n : Stack} {a b : GAct} (hab : Elsewhere a b) (ha : n.idle a = false) (hb : n.idle b = false) :
    (n.gstep r a).gstep r b = (n.gstep r b).gstep r a ∧ (n.gstep r a).idle b = false ∧ (n.gstep r b).idle a = false := by
  have client : ∀ {a b : GAct} {c : Nat}, ofClient a = some c → (∀ p, takesPart p a = true ↔ p = some c) → Elsewhere a b → n.idle a = false →
      n.idle b = false →
      (n.gstep r a).gstep r b = (n.gstep r b).gstep r a ∧ (n.gstep r a).idle b = false ∧ (n.gstep r b).idle a = false := by
    intro a b c h1 h2 hab ha hb
    rcases place hb with ⟨c', g1, g2⟩ | ⟨c', env, rfl⟩ | ⟨c', rfl⟩
    · have e : c ≠ c' := by
        rintro rfl
        have := hab (some c) ((h2 _).2 rfl)
        rw [(g2 _).2 rfl] at this; cases this
      simp only [gstep_client _ h1, gstep_client _ g1]
      refine ⟨?_, ?_, ?_⟩
      · rw [set_other e, set_other (Ne.symm e), set_comm _ e]
      · exact idle_client g1 hb fun l hl => ⟨l, by rw [set_other e]; exact hl, rfl, rfl⟩
      · exact idle_client h1 ha fun l hl => ⟨l, by rw [set_other (Ne.symm e)]; exact hl, rfl, rfl⟩
    · exact commute_serve h1 ha hb
    · have e : c ≠ c' := by
        rintro rfl
        have := hab (some c) ((h2 _).2 rfl)
        simp [takesPart] at this
      rw [gstep_client _ h1, gstep_client _ h1]
      simp only [Stack.gstep, Stack.step, set_other e]
      refine ⟨?_, rfl, ?_⟩
      · cases hl : n.links c' with
        | none => rfl
        | some l =>
          simp only
          split
          · rw [set_other (Ne.symm e)]
            exact set_comm { n with broker := _, dealer := _ } e _ _
          · rw [set_other (Ne.symm e), set_comm _ e]
      · refine idle_client h1 ha fun l hl => ⟨l, ?_, rfl, rfl⟩
        cases hl' : n.links c' with
        | none => exact hl
        | some l' =>
          simp only
          split <;> rw [set_other (Ne.symm e)] <;> exact hl
  rcases place ha with ⟨c, h1, h2⟩ | hr
  · exact client h1 h2 hab ha hb
  · rcases place hb with ⟨c, h1, h2⟩ | hr'
    · obtain ⟨g1, g2, g3⟩ := client h1 h2 hab.symm hb ha
      exact ⟨g1.symm, g3, g2⟩
    · have t1 : takesPart none a = true := by rcases hr with ⟨c, env, rfl⟩ | ⟨c, rfl⟩ <;> rfl
      have t2 : takesPart none b = true := by rcases hr' with ⟨c, env, rfl⟩ | ⟨c, rfl⟩ <;> rfl
      rw [hab none t1] at t2; cases t2

/-! ## Schedules -/

/-- One event; then all bytes arrive. -/
def astep (r : Setup) (n : Stack) (a : GAct) : Stack := (n.gstep r a).arrived

/-- At each event something is done. -/
def Alive (r : Setup) : Stack → List GAct → Prop
  | _, [] => True
  | n, a :: l => n.idle a = false ∧ Alive r (astep r n a) l

theorem did_alive (sched : List GAct) (n : Stack) :
    Alive r n.arrived (didFrom r n sched) ∧ (sched.foldl (Stack.gstep r) n).arrived = (didFrom r n sched).foldl (astep r) n.arrived := by
  induction sched generalizing n with
  | nil => exact ⟨trivial, rfl⟩
  | cons a l ih =>
    obtain ⟨h1, h2⟩ := ih (n.gstep r a)
    simp only [didFrom, List.foldl_cons]
    cases hi : n.idle a with
    | true =>
      rw [if_pos rfl]
      rw [idle_carries hi] at h1 h2
      exact ⟨h1, h2⟩
    | false =>
      rw [if_neg (by simp), List.foldl_cons]
      have e : astep r n.arrived a = (n.gstep r a).arrived := (gstep_arrived hi).symm
      rw [← e] at h1 h2
      exact ⟨⟨idle_arrived hi, h1⟩, h2⟩

theorem acommute {n : Stack} {a b : GAct} (hab : Elsewhere a b) (ha : n.idle a = false) (hb : n.idle b = false) :
    astep r (astep r n a) b = astep r (astep r n b) a ∧ (astep r n a).idle b = false ∧ (astep r n b).idle a = false := by
  obtain ⟨h1, h2, h3⟩ := commute (r := r) hab ha hb
  refine ⟨?_, idle_arrived h2, idle_arrived h3⟩
  unfold astep
  rw [← gstep_arrived h2, ← gstep_arrived h3, h1]

/-- An event that could happen now can as well happen now. -/
theorem to_front {n : Stack} {a : GAct} {x y : List GAct} (hx : ∀ b ∈ x, Elsewhere a b) (ha : n.idle a = false) (h : Alive r n (x ++ a :: y)) :
    Alive r n (a :: (x ++ y)) ∧ (x ++ a :: y).foldl (astep r) n = (a :: (x ++ y)).foldl (astep r) n := by
  induction x generalizing n with
  | nil => exact ⟨h, rfl⟩
  | cons b x ih =>
    obtain ⟨h1, h2⟩ := h
    obtain ⟨c1, c2, c3⟩ := acommute (r := r) (hx b (by simp)) ha h1
    obtain ⟨⟨g1, g2⟩, g3⟩ := ih (fun b' hb => hx b' (by simp [hb])) c3 h2
    refine ⟨⟨ha, c2, by rw [c1]; exact g2⟩, ?_⟩
    simp only [List.cons_append, List.foldl_cons] at g3 ⊢
    rw [g3, c1]

theorem first_of {α : Type} {p : α → Bool} {y : List α} {a : α} {l : List α} (P : α → Prop) [DecidablePred P] (hP : ∀ b, p b = true → P b)
    (h : y.filter p = a :: l) : ∃ y1 b y2, y = y1 ++ b :: y2 ∧ P b ∧ ∀ b' ∈ y1, ¬ P b' := by
  induction y with
  | nil => cases h
  | cons b y ih =>
    by_cases hb : P b
    · exact ⟨[], b, y, rfl, hb, by simp⟩
    · have : p b = false := by
        cases e : p b with
        | false => rfl
        | true => exact absurd (hP b e) hb
      rw [List.filter_cons_of_neg (by simp [this])] at h
      obtain ⟨y1, b', y2, rfl, h1, h2⟩ := ih h
      refine ⟨b :: y1, b', y2, rfl, h1, fun x hx => ?_⟩
      rcases List.mem_cons.1 hx with rfl | hx
      · exact hb
      · exact h2 x hx

theorem part_of {n : Stack} {a : GAct} (h : n.idle a = false) : ∃ p, takesPart p a = true := by
  rcases place h with ⟨c, -, h2⟩ | ⟨c, env, rfl⟩ | ⟨c, rfl⟩
  · exact ⟨some c, (h2 _).2 rfl⟩
  · exact ⟨none, rfl⟩
  · exact ⟨none, rfl⟩

theorem alive_append {x z : List GAct} {n : Stack} (h : Alive r n (x ++ z)) : Alive r (x.foldl (astep r) n) z := by
  induction x generalizing n with
  | nil => exact h
  | cons a x ih => exact ih h.2

theorem catch_up (x y : List GAct) (n : Stack) (hx : Alive r n x) (hy : Alive r n y)
    (h : ∀ p, x.filter (takesPart p) <+: y.filter (takesPart p)) :
    ∃ z, Alive r n (x ++ z) ∧ (x ++ z).foldl (astep r) n = y.foldl (astep r) n ∧ ∀ p, (x ++ z).filter (takesPart p) = y.filter (takesPart p) := by
  classical
  induction x generalizing y n with
  | nil => exact ⟨y, hy, rfl, fun _ => rfl⟩
  | cons a x ih =>
    obtain ⟨h1, h2⟩ := hx
    obtain ⟨p, hp⟩ := part_of h1
    obtain ⟨w, hw⟩ := h p
    rw [List.filter_cons_of_pos hp, List.cons_append] at hw
    obtain ⟨y1, b, y2, rfl, hb, hy1⟩ := first_of (fun b => ¬ Elsewhere a b) (fun b hb hab => by rw [hab p hp] at hb; cases hb) hw.symm
    have hap : ∀ b' ∈ y1, Elsewhere a b' := fun b' hb' => Classical.not_not.1 (hy1 b' hb')
    have none1 : ∀ q, takesPart q a = true → y1.filter (takesPart q) = [] := fun q hq =>
      List.filter_eq_nil_iff.2 fun b' hb' => by rw [hap b' hb' q hq]; simp
    obtain ⟨q, hq⟩ := Classical.not_forall.1 hb
    obtain ⟨hq1, hq2⟩ := Classical.not_imp.1 hq
    have hq2 : takesPart q b = true := by simpa using hq2
    obtain ⟨v, e⟩ := h q
    rw [List.filter_cons_of_pos hq1, List.filter_append, none1 q hq1, List.nil_append, List.filter_cons_of_pos hq2, List.cons_append] at e
    obtain rfl : a = b := (List.cons.inj e).1
    obtain ⟨⟨-, g1⟩, g2⟩ := to_front hap h1 hy
    obtain ⟨z, z1, z2, z3⟩ := ih (y1 ++ y2) _ h2 g1 fun q => by
      have e := h q
      rw [List.filter_append] at e ⊢
      by_cases hq : takesPart q a = true
      · rw [List.filter_cons_of_pos hq, List.filter_cons_of_pos hq, none1 q hq, List.nil_append] at e
        rw [none1 q hq, List.nil_append]
        exact (List.cons_prefix_cons.1 e).2
      · rw [List.filter_cons_of_neg hq, List.filter_cons_of_neg hq] at e
        exact e
    refine ⟨z, ⟨h1, z1⟩, by rw [g2]; exact z2, fun q => ?_⟩
    have e := z3 q
    rw [List.filter_append (l₁ := y1)] at e ⊢
    rw [List.cons_append]
    by_cases hq : takesPart q a = true
    · rw [List.filter_cons_of_pos hq, List.filter_cons_of_pos hq, e, none1 q hq, List.nil_append, List.nil_append]
    · rw [List.filter_cons_of_neg hq, List.filter_cons_of_neg hq, e]

theorem same_places (x y : List GAct) (n : Stack) (hx : Alive r n x) (hy : Alive r n y)
    (h : ∀ p, x.filter (takesPart p) = y.filter (takesPart p)) : x.foldl (astep r) n = y.foldl (astep r) n := by
  obtain ⟨z, z1, z2, z3⟩ := catch_up x y n hx hy fun p => by rw [h p]
  have : z = [] := by
    cases z with
    | nil => rfl
    | cons b z =>
      obtain ⟨p, hp⟩ := part_of (alive_append z1).1
      have := z3 p
      rw [List.filter_append, h p, List.filter_cons_of_pos hp] at this
      simp at this
  rw [← z2, this, List.append_nil]

/-- If the same was done in the same order at the router, and the same in the same order at each client, then it is the same system: broker and
dealer have had the same calls, each client is in the same state, its session has had the same calls, and the same bytes are on their way
or waiting to be used. -/
theorem C131_order (r : Setup) (x y : List GAct) (h : ∀ p, doneBy r x p = doneBy r y p) : (grun r x).arrived = (grun r y).arrived := by
  obtain ⟨x1, x2⟩ := did_alive (r := r) x {}
  obtain ⟨y1, y2⟩ := did_alive (r := r) y {}
  unfold grun
  rw [x2, y2]
  exact same_places _ _ _ x1 y1 h

/-- So no application can tell the difference: its session has had the same calls, with the same outcomes. -/
theorem C131_sessions (r : Setup) (x y : List GAct) (h : ∀ p, doneBy r x p = doneBy r y p) :
    (grun r x).broker = (grun r y).broker ∧ (grun r x).dealer = (grun r y).dealer ∧
    ∀ c l, (grun r x).links c = some l → ∃ l', (grun r y).links c = some l' ∧ l'.config = l.config ∧ l'.client = l.client ∧ l'.router = l.router ∧
      l'.upHas ++ l'.up = l.upHas ++ l.up ∧ l'.downHas ++ l'.down = l.downHas ++ l.down := by
  have e := C131_order r x y h
  refine ⟨(congrArg Stack.broker e :), (congrArg Stack.dealer e :), fun c l hl => ?_⟩
  have e' := congrFun (congrArg Stack.links e) c
  rw [arrived_links, arrived_links, hl] at e'
  cases hl' : (grun r y).links c with
  | none => rw [hl'] at e'; cases e'
  | some l' =>
    rw [hl', Option.map_some, Option.map_some] at e'
    have e' := Option.some.inj e'
    exact ⟨l', rfl, (congrArg Link.config e').symm, (congrArg Link.client e').symm, (congrArg Link.router e').symm,
      (congrArg Link.upHas e').symm, (congrArg Link.downHas e').symm⟩

/-- And when no bytes are on their way, the two systems are equal in every respect. -/
theorem C131_same (r : Setup) (x y : List GAct) (h : ∀ p, doneBy r x p = doneBy r y p)
    (hx : ∀ c l, (grun r x).links c = some l → l.up = [] ∧ l.down = []) (hy : ∀ c l, (grun r y).links c = some l → l.up = [] ∧ l.down = []) :
    grun r x = grun r y := by
  have rest : ∀ n : Stack, (∀ c l, n.links c = some l → l.up = [] ∧ l.down = []) → n.arrived = n := fun n hn => by
    refine ext_links rfl rfl fun c => ?_
    rw [arrived_links]
    cases hl : n.links c with
    | none => rfl
    | some l =>
      obtain ⟨h1, h2⟩ := hn c l hl
      cases l
      simp_all [Link.arrived]
  rw [← rest _ hx, ← rest _ hy, C131_order r x y h]

theorem idle_links {n n' : Stack} {a : GAct} (h : n'.links (connOf a) = n.links (connOf a)) : n'.idle a = n.idle a := by
  cases a with
  | inject c b => rfl
  | act a => cases a <;> first | rfl | (simp only [connOf] at h; simp only [Stack.idle, h])

/-- All bytes of a connection are carried. -/
theorem carried (n : Stack) (c : Nat) : ∃ k, ((n.gstep r (.act (.carryUp c k))).gstep r (.act (.carryDown c k))).links c = n.arrived.links c := by
  cases hl : n.links c with
  | none => exact ⟨0, by simp [Stack.gstep, Stack.step, hl, arrived_links]⟩
  | some l =>
    refine ⟨l.up.length + l.down.length, ?_⟩
    simp [Stack.gstep, Stack.step, hl, set_links, arrived_links, Link.arrived, List.take_of_length_le, List.drop_of_length_le]

/-- What could be done if all bytes had arrived can be done. -/
theorem doable (z : List GAct) (n : Stack) (h : Alive r n.arrived z) : ∃ more, didFrom r n more = z := by
  induction z generalizing n with
  | nil => exact ⟨[], rfl⟩
  | cons b z ih =>
    obtain ⟨h1, h2⟩ := h
    obtain ⟨k, hk⟩ := carried (r := r) n (connOf b)
    generalize hn' : (n.gstep r (.act (.carryUp (connOf b) k))).gstep r (.act (.carryDown (connOf b) k)) = n' at hk
    have e1 : n'.arrived = n.arrived := by
      rw [← hn', idle_carries rfl, idle_carries rfl]
    have e2 : n'.idle b = false := by rw [idle_links hk]; exact h1
    have e3 : astep r n.arrived b = (n'.gstep r b).arrived := by rw [gstep_arrived e2, e1]; rfl
    rw [e3] at h2
    obtain ⟨more, hm⟩ := ih _ h2
    refine ⟨.act (.carryUp (connOf b) k) :: .act (.carryDown (connOf b) k) :: b :: more, ?_⟩
    have i1 : n.idle (.act (.carryUp (connOf b) k)) = true := rfl
    have i2 : (n.gstep r (.act (.carryUp (connOf b) k))).idle (.act (.carryDown (connOf b) k)) = true := rfl
    rw [didFrom, if_pos i1, didFrom, if_pos i2, hn', didFrom, if_neg (by rw [e2]; simp), hm]

theorem didFrom_append (x z : List GAct) (n : Stack) : didFrom r n (x ++ z) = didFrom r n x ++ didFrom r (x.foldl (Stack.gstep r) n) z := by
  induction x generalizing n with
  | nil => rfl
  | cons a x ih =>
    simp only [List.cons_append, didFrom, List.foldl_cons, ih]
    split <;> simp

/-- Runs that have not come equally far: if what was done at each place so far is the beginning of what was done there in another run, then things can
go on so that it becomes the same system. -/
theorem C131_catch_up (r : Setup) (x y : List GAct) (h : ∀ p, doneBy r x p <+: doneBy r y p) :
    ∃ more, (∀ p, doneBy r (x ++ more) p = doneBy r y p) ∧ (grun r (x ++ more)).arrived = (grun r y).arrived := by
  obtain ⟨x1, x2⟩ := did_alive (r := r) x {}
  obtain ⟨y1, -⟩ := did_alive (r := r) y {}
  obtain ⟨z, z1, -, z3⟩ := catch_up _ _ _ x1 y1 h
  have z1 := alive_append z1
  rw [← x2] at z1
  obtain ⟨more, hm⟩ := doable z _ z1
  have : ∀ p, doneBy r (x ++ more) p = doneBy r y p := fun p => by
    rw [doneBy, did, didFrom_append, hm]
    exact z3 p
  exact ⟨more, this, C131_order r _ _ this⟩

/-! ## Examples -/

/-- At which events nothing is done -/
def idles (r : Setup) (n : Stack) : List GAct → List Bool
  | [] => []
  | a :: l => n.idle a :: idles r (n.gstep r a) l

def pick : List Bool → List GAct → List GAct
  | b :: bs, a :: l => if b then pick bs l else a :: pick bs l
  | _, _ => []

theorem did_pick (l : List GAct) (n : Stack) : didFrom r n l = pick (idles r n l) l := by
  induction l generalizing n with
  | nil => rfl
  | cons a l ih => simp only [didFrom, idles, pick, ih]

/-- As `busy`, but the second client connects first, bytes come in other pieces, and the first client has sent its requests before the second
one has logged in. -/
def leisurely : List GAct := [
   .act (.connect 1 ⟨.msgpack, 5000, "realm1", anonymousAuthenticator "" none, none⟩ (.int 12)),
   .act (.connect 0 ⟨.cbor, 700, "realm1", anonymousAuthenticator "" none, none⟩ (.int 11)),
   .act (.carryUp 1 2), .act (.serve 1 demoEnv), .act (.hear 1)] ++ (comeIn 0).map .act ++
  [.act (.send 0 (.subscribe ⟨.int 1, "a", []⟩)), .act (.carryUp 0 7), .act (.serve 0 demoEnv), .act (.send 0 (.register ⟨.int 2, "p", []⟩)),
   .act (.carryUp 1 2)] ++ (comeIn 1).map .act ++
  [.act (.send 1 (.publish ⟨.int 1, "a", some [.int 5], none, []⟩)), .act (.carryUp 0 900), .act (.serve 0 demoEnv), .act (.carryUp 1 900),
   .act (.serve 0 demoEnv),
   .act (.send 1 (.call { requestId := .int 2, procedure := "p", args := some [.int 7] })), .act (.serve 1 demoEnv),
   .act (.send 1 (.call { requestId := .int 3, procedure := "none" })), .act (.carryUp 1 900), .act (.serve 1 demoEnv), .act (.serve 1 demoEnv),
   .act (.carryDown 0 900), .act (.hear 0), .act (.hear 0), .act (.hear 0), .act (.hear 0),
   .act (.send 0 (.yield_ { requestId := .int 2, args := some [.int 8] })), .act (.carryUp 0 900), .act (.serve 0 demoEnv),
   .act (.carryDown 1 900), .act (.hear 1), .act (.hear 1)]

theorem leisurely_did : did demoSetup leisurely = pick [false, false, true, true, true, true, true, false, true, false, true, false, true, false,
    false, true, true, false, true, true, true, false, true, false, true, false, true, false, false, true, false, true, false, false, false, false,
    true, false, false, true, false, false, false, false, false, true, false, true, false, false] leisurely := by
  rw [did, did_pick]
  exact congrArg (pick · _) (by decide +kernel)

theorem busy_did : did demoSetup (busy.map .act) = pick [false, false, true, true, false, true, false, true, false, true, false, true, true, false,
    true, false, true, false, true, false, false, false, true, false, false, true, false, false, false, false, false, true, false, false, false,
    true, false, false, false, true, false, true, false, false] (busy.map .act) := by
  rw [did, did_pick]
  exact congrArg (pick · _) (by decide +kernel)

theorem leisurely_done (p : Option Nat) : doneBy demoSetup leisurely p = doneBy demoSetup (busy.map .act) p := by
  unfold doneBy
  rw [leisurely_did, busy_did]
  rcases p with _ | c
  · rfl
  · by_cases h0 : c = 0
    · subst h0; rfl
    · by_cases h1 : c = 1
      · subst h1; rfl
      · simp [leisurely, busy, comeIn, pick, takesPart, h0, h1]

/-- The callee has been handed the same, and so has the caller. -/
example : (grun demoSetup leisurely).dealer = (srun demoSetup busy).dealer ∧ ∃ l l' : Link, (grun demoSetup leisurely).links 0 = some l ∧
    (srun demoSetup busy).links 0 = some l' ∧ l'.client = l.client := by
  obtain ⟨-, h2, h3⟩ := C131_sessions demoSetup leisurely (busy.map .act) leisurely_done
  have e : grun demoSetup (busy.map .act) = srun demoSetup busy := by
    rw [grun, srun, List.foldl_map]; rfl
  rw [e] at h2 h3
  obtain ⟨l, hl⟩ := Option.isSome_iff_exists.1 (show ((grun demoSetup leisurely).links 0).isSome = true by decide +kernel)
  obtain ⟨l', g1, -, g2, -⟩ := h3 0 l hl
  exact ⟨h2, l, l', hl, g1, g2⟩

theorem only_two {sched : List GAct} (h : ∀ a ∈ sched, connOf a = 0 ∨ connOf a = 1)
    (h0 : ((grun demoSetup sched).links 0).all fun l => l.up.isEmpty && l.down.isEmpty)
    (h1 : ((grun demoSetup sched).links 1).all fun l => l.up.isEmpty && l.down.isEmpty) (c : Nat) (l : Link)
    (hl : (grun demoSetup sched).links c = some l) : l.up = [] ∧ l.down = [] := by
  by_cases c0 : c = 0
  · subst c0; rw [hl] at h0; simpa using h0
  · by_cases c1 : c = 1
    · subst c1; rw [hl] at h1; simpa using h1
    · rw [unused_links sched c fun a ha e => by rcases h a ha with h | h <;> omega] at hl
      cases hl

/-- Here all bytes have arrived in the end, so it is the very same system. -/
example : grun demoSetup leisurely = srun demoSetup busy := by
  rw [← grun_map]
  refine C131_same demoSetup _ _ leisurely_done (only_two ?_ (by decide +kernel) (by decide +kernel))
    (only_two ?_ (by decide +kernel) (by decide +kernel)) <;> simp [leisurely, busy, comeIn, connOf]

/-- And wherever `busy` is broken off, things can go on as in `leisurely`. -/
example (k : Nat) : ∃ more, (grun demoSetup ((busy.take k).map .act ++ more)).arrived = (grun demoSetup leisurely).arrived := by
  obtain ⟨more, -, h⟩ := C131_catch_up demoSetup ((busy.take k).map .act) leisurely fun p => by
    rw [leisurely_done]
    refine ⟨((didFrom demoSetup (((busy.take k).map .act).foldl (Stack.gstep demoSetup) {}) ((busy.drop k).map .act))).filter (takesPart p), ?_⟩
    rw [doneBy, did, ← List.filter_append, ← didFrom_append, ← List.map_append, List.take_append_drop]; rfl
  exact ⟨more, h⟩

/-- But the order at the router makes a difference: both clients ask for the same procedure, and who is served first gets it. -/
def contest (first second : Nat) : List GAct :=
  (busy.take 20).map .act ++ [.act (.send 0 (.register ⟨.int 1, "p", []⟩)), .act (.send 1 (.register ⟨.int 1, "p", []⟩)),
    .act (.carryUp 0 900), .act (.carryUp 1 900), .act (.serve first demoEnv), .act (.serve second demoEnv)]

theorem contest_did (first second : Nat) (h : first = 0 ∧ second = 1 ∨ first = 1 ∧ second = 0) :
    did demoSetup (contest first second) = pick [false, false, true, true, false, true, false, true, false, true, false, true, true, false,
    true, false, true, false, true, false, false, false, true, true, false, false] (contest first second) := by
  rw [did, did_pick]
  rcases h with ⟨rfl, rfl⟩ | ⟨rfl, rfl⟩ <;> exact congrArg (pick · _) (by decide +kernel)

example : (∀ c, doneBy demoSetup (contest 0 1) (some c) = doneBy demoSetup (contest 1 0) (some c)) ∧
    (grun demoSetup (contest 0 1)).dealer ≠ (grun demoSetup (contest 1 0)).dealer := by
  refine ⟨fun c => ?_, by decide +kernel⟩
  unfold doneBy
  rw [contest_did 0 1 (.inl ⟨rfl, rfl⟩), contest_did 1 0 (.inr ⟨rfl, rfl⟩)]
  simp [contest, busy, comeIn, pick, takesPart, List.filter_cons]

end Wamp.Spec.Stack
