import Verif.Lemmas.Follow
import Verif.Props.Startup
/-!
# Property theorems C137: a node list report brings the application up to date
-/
namespace Props.Follow
open Spec Spec.App Spec.Peer Model Model.Boot
open Model.App (Nd key)
open Lemmas.App (Honest Came Todo toAsk)

theorem _root_.Spec.Peer.Settled.quiet {own : Nat} {s : State} (h : Settled own s) : Gateway.StillOpen s.gw := ⟨h.connected, h.acks, h.sessions⟩

theorem news_eq {w : Network} {t : Dict Str Nd} {list : List Nat} (h1 : list.Nodup) (h2 : ∀ n, n ∈ list ↔ n ∈ w.nodes) :
    toAsk w.own.toNat (w.net list) (fun n => t.mem (key n 0)) list = w.news t := by
  have hn : w.nodes.Nodup := (List.nodup_range).filter _
  exact costs_perm _ (w.net []) (((List.perm_ext_iff_of_nodup h1 hn).2 h2).filter _)

/-- None of the nodes loaded is the gateway itself. -/
theorem new_others {own : Nat} {net : Net} {known : Nat → Bool} {l : List Nat} {new : List Nd} (h : new.map descr = newNodes own net known l) {nd : Nd} (hnd : nd ∈ new) : nd.root ≠ own := by
  have hd := List.mem_map_of_mem (f := descr) hnd
  rw [h] at hd
  obtain ⟨n, -, hn⟩ := List.mem_flatMap.1 hd
  split at hn
  · cases hn
  · rename_i hno
    have hroot : nd.root = n := by
      rcases List.mem_cons.1 hn with hn | hn
      · exact congrArg Prod.fst hn
      · split at hn
        · obtain ⟨x, -, hx⟩ := List.mem_map.1 hn
          exact (congrArg Prod.fst hx).symm
        · cases hn
    rw [hroot]
    exact fun h => hno (.inl h)

/-- The application has been told, and nodes that are gone have been removed. -/
theorem listed {w : Network} (hw : w.Regular) (a : Addresses) (f : Freedom) {s : State} (hs : Settled w.own.toNat s) (hown : w.own.toNat ∈ w.nodes) :
    ∃ g1 list m app g, Noticed w a s g1 ∧ list.Nodup ∧ (∀ n, n ∈ list ↔ n ∈ w.nodes) ∧
      Mid s.app g1 s.waits (s.updates + 1) 0 (times (turnOf w f.loads s.app.calls.length) m (step (noticed w a f s).1 .update, (noticed w a f s).2)) app g ∧
      Came w.own.toNat (w.net list) (fun n => s.app.nodes.mem (key n 0)) s.app.trace s.app.calls.length (w.news s.app.nodes) app := by
  obtain ⟨g1, e, N⟩ := noticed_state hw.mask a f hs.quiet
  have hkeys : ∀ n, n ∈ Dict.keys g1.nodes ↔ n ∈ w.nodes := by
    intro n
    rw [mem_keys, mem_nodes hw.mask]
    refine ⟨fun ⟨v, h⟩ => ((N.nodes n v).1 h).1, fun h => ?_⟩
    by_cases hk : n ∈ Dict.keys s.gw.nodes
    · obtain ⟨v, hv⟩ := mem_keys.1 hk
      exact ⟨v, (N.nodes n v).2 ⟨h, by rw [if_pos hk]; exact hv⟩⟩
    · exact ⟨_, (N.nodes n _).2 ⟨h, by rw [if_neg hk]⟩⟩
  have hne : g1.nodes ≠ [] := by
    intro h
    have := (hkeys _).2 hown
    rw [h] at this
    cases this
  have hi : (App.step s.app (.start .update)).calls[s.app.calls.length]? = some (.list .update) := by simp [App.step]
  have h0 : Mid s.app g1 s.waits (s.updates + 1) 0 (step (noticed w a f s).1 .update, (noticed w a f s).2) (App.step s.app (.start .update)) g1 := by
    refine ⟨?_, N.quiet, rfl, rfl, rfl, rfl, rfl, ?_, ⟨[], rfl⟩⟩
    · rw [e]
      have : s.updates < g1.listUpdated := by rw [N.upd, hs.caught]; omega
      simp only [step, this, if_true, begin, waiting]
    · rw [hs.self, ← hs.id]; simp only [ownId, N.id]
  obtain ⟨g2, h1⟩ := mid_list w f.loads h0 hi hne
  have hlist : (Gateway.iter (Dict.keys g1.nodes) f.loads).Nodup := iter_nodup (N.keys hs.table)
  have hmem : ∀ n, n ∈ Gateway.iter (Dict.keys g1.nodes) f.loads ↔ n ∈ w.nodes := fun n => (Gateway.mem_iter _ _ n).trans (hkeys n)
  generalize Gateway.iter (Dict.keys g1.nodes) f.loads = list at h1 hlist hmem
  have ea : App.answer (App.step s.app (.start .update)) s.app.calls.length (.list (.ok list)) =
      App.remove ((App.step s.app (.start .update)).see (.gotList s.app.calls.length list)) s.app.calls.length (Dict.keys (s.app.nodes.filter fun p => p.2.root ∉ list)) list
        (Dict.keys (s.app.nodes.filter fun p => p.2.root ∉ list)) := by
    unfold App.answer
    rw [hi]
    rfl
  rw [ea] at h1
  have ht : Honest (w.net list) s.app.trace (App.step s.app (.start .update)) := ⟨[], by simp [App.step], fun x hx => by cases hx⟩
  obtain ⟨m, app, h2, h3⟩ := mid_remove (net := w.net list) (known := fun n => s.app.nodes.mem (key n 0)) (t0 := s.app.trace) w f.loads _ _
    ((App.step s.app (.start .update)).see (.gotList s.app.calls.length list)) _ _ hi (ht.see rfl) rfl
    ((List.filter_sublist.map _).nodup hs.orderly.nodup)
    (fun k hk => by
      rw [Lemmas.App.mem_iff]
      exact (List.filter_sublist.map _).subset hk)
    (fun k hk n hn hkn => by
      obtain ⟨v, hv⟩ := mem_keys.1 hk
      obtain ⟨hv1, hv2⟩ := List.mem_filter.1 hv
      have hid := hs.orderly.ids k v hv1
      rw [← hkn] at hid
      have : n = v.root := (Lemmas.App.key_inj hid).1
      rw [← this] at hv2
      have hn : n ∈ list := hn
      simp [hn] at hv2)
    ⟨fun n hn => hn, hlist, fun n _ => rfl⟩ h1
  have hnews : toAsk s.app.own (w.net list) (fun n => s.app.nodes.mem (key n 0)) (w.net list).list = w.news s.app.nodes := by
    rw [hs.self]
    exact news_eq hlist hmem
  rw [hnews, hs.self] at h3
  exact ⟨g1, list, m + 1, app, g2, N, hlist, hmem, h2, h3⟩

/-- What has ended stays as it is. -/
theorem stays {wt : Nat → Option Nat} {u i : Nat} {app : App.State} {g : Gateway.State} {r : Py Unit} (w : Network) (order : List Nat) (hc : app.calls[i]? = some (.done r)) (ho : app.own = ownId g) (n : Nat) :
    times (turnOf w order i) n (waiting wt u i app g, g.conn.out.length) = (waiting wt u i app g, g.conn.out.length) := by
  have e : turnOf w order i (waiting wt u i app g, g.conn.out.length) = (waiting wt u i app g, g.conn.out.length) := by
    have e : App.answer { app with own := ownId g } i (.asked (.ok ())) = app := by
      rw [← ho]
      unfold App.answer
      rw [hc]
    rw [waiting_none hc rfl]
    unfold turnOf
    dsimp only
    rw [List.getElem?_eq_none (Nat.le_refl _)]
    dsimp only
    rw [if_pos rfl]
    dsimp only
    rw [waiting_asked, e, waiting_none hc rfl]
  induction n with
  | zero => rfl
  | succ n ih => rw [times, e]; exact ih

/-- The full property: after a startup that ended, whenever a node list report arrives, the update ends without an exception. -/
def C137_statement : Prop := ∀ (w0 w : Network) (a : Addresses) (f : Freedom) (order : List Nat), w0.Regular → w0.questions ≤ 255 → w.Regular → w.own = w0.own → w.own.toNat ∈ w.nodes →
  ∃ m, ∀ n, m ≤ n → (followed w a f (started w0 order w0.questions) n).app.calls[1]? = some (.done (.ok ()))

/-- **C137**, what holds: a node list report arrives at an application that is up to date, the gateway advertises the addresses of new nodes, acknowledges every packet and answers
every question, and the number of questions asked so far and of those needed for the new nodes is at most 255. Then the update ends without an exception, and the application is up to
date: the table of the gateway has the nodes of the report with the addresses known before, or advertised; the table of the application has the nodes it had before and that are still
there, as they were, followed by the new nodes and their end points; and the listeners have been told of the nodes removed and added, in this order. -/
theorem C137_followed_partial (w : Network) (a : Addresses) (f : Freedom) (s : State) (hw : w.Regular) (hs : Settled w.own.toNat s) (hown : w.own.toNat ∈ w.nodes)
    (hq : s.gw.nmSeq + w.news s.app.nodes ≤ 255) :
    ∃ m, ∀ n, m ≤ n → let t := followed w a f s n
      t.app.calls[s.app.calls.length]? = some (.done (.ok ())) ∧ Settled w.own.toNat t ∧
      (∀ n v, (n, v) ∈ t.gw.nodes ↔ MarkedIn w.mask n ∧ if n ∈ Dict.keys s.gw.nodes then (n, v) ∈ s.gw.nodes else v = some (a.of (UInt8.ofNat n))) ∧
      (∀ n, key n 0 ∈ Dict.keys t.app.nodes ↔ MarkedIn w.mask n ∧ n ≠ w.own.toNat) ∧
      t.gw.nmSeq = s.gw.nmSeq + w.news s.app.nodes ∧ t.gw.conn.out.length = s.gw.conn.out.length + (unknown s.gw w).length + w.news s.app.nodes ∧
      ∃ (list : List Nat) (gone : List Str) (new : List Nd), list.Nodup ∧ (∀ n, n ∈ list ↔ MarkedIn w.mask n) ∧ gone = Dict.keys (s.app.nodes.filter fun p => p.2.root ∉ list) ∧
        t.app.nodes = s.app.nodes.filter (fun p => p.2.root ∈ list) ++ new.map (fun nd => (nd.id, nd)) ∧
        new.map descr = newNodes w.own.toNat (w.net list) (fun n => key n 0 ∈ Dict.keys s.app.nodes) list ∧
        told (since s.app t.app) = gone.map (.removed s.app.calls.length) ++ (if gone = [] then [] else [.removedAll s.app.calls.length gone]) ++
          if new = [] then [] else .addedAll s.app.calls.length new :: new.map (.added s.app.calls.length) := by
  obtain ⟨g1, list, m1, app1, g, N, l1, l2, h1, c1⟩ := listed hw a f hs hown
  obtain ⟨m2, app2, g2, h2, h3, h4⟩ := mid_load hw f.loads (fun n hn => (l2 n).1 hn) hs.self _ _ _ _ _ h1 c1 (by rw [N.nm]; omega)
  refine ⟨m1 + m2, fun n hn => ?_⟩
  obtain ⟨k, rfl⟩ := Nat.exists_eq_add_of_le hn
  have e : followed w a f s (m1 + m2 + k) = ⟨g2, app2, fun j => if j = s.app.calls.length then none else s.waits j, s.updates + 1⟩ := by
    unfold followed
    rw [times_add, times_add, h2.eq, stays w f.loads h3 (by rw [h2.appOwn, h2.own]; simp only [ownId, h2.id]), waiting_none h3 rfl]
  obtain ⟨answers, ha⟩ := h2.told
  have hrep := h4.since
  obtain ⟨new, n1, n2, n3, n4⟩ := Props.App.C53_nodes (net := w.net list) (k := .update) hs.orderly l1 (by simp) ha hrep h3
  obtain ⟨gone, new', t1, t2, t3⟩ := Props.App.C54_told (net := w.net list) hs.orderly l1 ha hrep h3
  have hnew : new' = new := by
    have := t2.symm.trans n1
    have := List.append_cancel_left this
    have := congrArg (List.map Prod.snd) this
    simpa [List.map_map, Function.comp_def] using this
  subst hnew
  rw [hs.self] at n2
  dsimp only
  rw [e]
  refine ⟨h3, ⟨h2.quiet.connected, h2.quiet.acks, h2.quiet.sessions, ?_, ?_, ?_, ?_, n4, ?_⟩, ?_, ?_, ?_, ?_, list, gone, new', l1, fun n => by rw [l2, mem_nodes hw.mask], t1, n1, n2, t3⟩
  · show s.updates + 1 = g2.listUpdated
    rw [h2.upd, N.upd, hs.caught]
  · rw [← hs.id]; simp only [ownId, h2.id, N.id]
  · rw [h2.appOwn, hs.self]
  · show (Dict.keys g2.nodes).Nodup
    rw [h2.nodes]
    exact N.keys hs.table
  · intro k nd hk
    have hk : (k, nd) ∈ app2.nodes := hk
    rw [n1, List.mem_append] at hk
    rcases hk with hk | hk
    · exact hs.others k nd (List.mem_filter.1 hk).1
    · obtain ⟨nd', hnd, e'⟩ := List.mem_map.1 hk
      obtain ⟨-, rfl⟩ := Prod.mk.inj e'
      exact new_others n2 hnd
  · intro n v
    show (n, v) ∈ g2.nodes ↔ _
    rw [h2.nodes]
    exact N.nodes n v
  · intro n
    show key n 0 ∈ Dict.keys app2.nodes ↔ _
    rw [Props.App.C53_ids (net := w.net list) (k := .update) hs.orderly (by rw [hs.self]; exact hs.others) l1 (by simp) ha hrep h3 n 0, hs.self, ← mem_nodes hw.mask, ← l2]
    refine and_congr_right fun _ => ⟨fun h => h.1, fun h => ⟨h, ?_⟩⟩
    split
    · assumption
    · exact .inl rfl
  · show g2.nmSeq = _
    rw [h2.nm, N.nm, Nat.zero_add]
  · show g2.conn.out.length = _
    rw [h2.out, N.out, Nat.zero_add]

/-- After startup the application is up to date. -/
theorem C137_settled (w : Network) (order : List Nat) (hw : w.Regular) (hq : w.questions ≤ 255) : Settled w.own.toNat (started w order w.questions) ∧
    (started w order w.questions).gw.nmSeq = w.questions := by
  obtain ⟨list, app, p, app', g, h1, h2, hb, hs, e3, answers, e6, e7⟩ := Props.Startup.started_end w order hw hq
  obtain ⟨new, n1, n2, -, n4⟩ := Props.App.C53_nodes (s0 := App.fresh w.own.toNat) (s := app') (net := w.net list) (k := .startup) (answers := answers)
    ⟨by simp [App.fresh, Dict.keys], by simp [App.fresh], by simp [App.fresh]⟩ h1 (fun _ => rfl) e6 e7 (by rw [e3]; rfl)
  rw [hs]
  refine ⟨⟨hb.quiet.connected, hb.quiet.acks, hb.quiet.sessions, hb.upd.symm, hb.own, by rw [e6]; exact Lemmas.App.run_own _ _, hb.table, n4, fun k nd hk => ?_⟩, hb.nm⟩
  have hk : (k, nd) ∈ app'.nodes := hk
  rw [n1, List.mem_append] at hk
  rcases hk with hk | hk
  · cases hk
  · obtain ⟨nd', hnd, e'⟩ := List.mem_map.1 hk
    obtain ⟨-, rfl⟩ := Prod.mk.inj e'
    exact new_others n2 hnd

/-- **C137**, what goes wrong: if more than 255 questions would be asked in all, the update fails with OverflowError. -/
theorem C137_overflow_partial (w : Network) (a : Addresses) (f : Freedom) (s : State) (hw : w.Regular) (hs : Settled w.own.toNat s) (hown : w.own.toNat ∈ w.nodes) (hmax : s.gw.nmSeq ≤ 255)
    (hq : 255 < s.gw.nmSeq + w.news s.app.nodes) :
    ∃ m, ∀ n, m ≤ n → (followed w a f s n).app.calls[s.app.calls.length]? = some (.done (.error .overflow)) := by
  obtain ⟨g1, list, m1, app1, g, N, l1, l2, h1, c1⟩ := listed hw a f hs hown
  have hl : ∀ n ∈ list, n ∈ w.nodes := fun n hn => (l2 n).1 hn
  obtain ⟨m2, app2, g2, h2, c2⟩ := mid_some hw f.loads hl hs.self (255 - s.gw.nmSeq) _ _ _ _ _ h1 c1 (by omega) (by rw [N.nm]; omega)
  obtain ⟨pc, hc, hg, hr⟩ := c2.at_
  have hask := hg.asking (by omega)
  obtain ⟨c, hid, q1, q2, q3, q4⟩ := Props.Startup.asking_query hw hl hask
  obtain ⟨s1, s2⟩ := Gateway.nm_stuck g2 c q2 (fun x => q3 x.1) (by rw [h2.nm, N.nm]; omega) q4
  obtain ⟨ans, a1, a2⟩ := Props.Startup.answerOf_error q1 .overflow f.loads
  have hstep : turnOf w f.loads s.app.calls.length (waiting s.waits (s.updates + 1) s.app.calls.length app2 g2, g2.conn.out.length) =
      (waiting s.waits (s.updates + 1) s.app.calls.length (App.State.goto { app2 with own := ownId (Gateway.step g2 (.nm c)) } s.app.calls.length (.done (.error .overflow))) (Gateway.step g2 (.nm c)),
        (Gateway.step g2 (.nm c)).conn.out.length) := by
    rw [waiting_query hc q1]
    unfold turnOf
    dsimp only
    rw [s2, List.getElem?_eq_none (Nat.le_refl _)]
    dsimp only
    rw [if_pos rfl]
    dsimp only
    rw [waiting_resume (r := .error .overflow) hc (by rw [s1]; simp) a1, a2 { app2 with own := ownId (Gateway.step g2 (.nm c)) } _ hc]
  have hend : (App.State.goto { app2 with own := ownId (Gateway.step g2 (.nm c)) } s.app.calls.length (.done (.error .overflow))).calls[s.app.calls.length]? = some (.done (.error .overflow)) :=
    Lemmas.App.goto_at (s := { app2 with own := ownId (Gateway.step g2 (.nm c)) }) hc _
  refine ⟨m1 + m2 + 1, fun n hn => ?_⟩
  obtain ⟨k, rfl⟩ := Nat.exists_eq_add_of_le hn
  unfold followed
  rw [times_add, times_add, times_add, h2.eq, times, hstep, times, stays w f.loads hend rfl, waiting_none hend rfl]
  exact hend

/-! ## Examples -/

/-- Only the gateway itself, node 1. -/
def alone : Network := { Props.Startup.home with mask := 1 :: List.replicate 27 0 }

theorem alone_nodes : alone.nodes = [1] := by decide +kernel

theorem alone_regular : alone.Regular := by
  refine ⟨rfl, rfl, fun n hn h => ?_, fun n hn h => ?_⟩ <;> rw [alone_nodes] at hn <;> exact absurd (List.mem_singleton.1 hn) h

/-- Node `n` is at fd00:bbbb::n. -/
def addresses : Addresses := ⟨fun n => [0xFD, 0, 0xBB, 0xBB, 0, 0, 0, 0, 0, 0, 0, 0, 0, 0, 0, n], [1, 2, 3, 4], fun _ => rfl, rfl⟩

def freedom : Freedom := ⟨Props.Gateway.plain, ⟨by decide, by decide, by decide⟩, rfl, 1, 0, [], [], []⟩

/-- Nodes 2 and 3 join: both are looked up, and five questions are asked. -/
example : alone.questions = 2 ∧ unknown (started alone [] 2).gw Props.Startup.home = [2, 3] ∧ Props.Startup.home.news (started alone [] 2).app.nodes = 5 := by decide +kernel

def joined : State := followed Props.Startup.home addresses freedom (started alone [] 2) 12

example : joined.app.calls = [.done (.ok ()), .done (.ok ())] ∧ joined.app.nodes.map (fun p => (p.2.root, p.2.ep)) = [(2, 0), (3, 0), (3, 1), (3, 2)] ∧
    joined.gw.nodes = [(1, none), (2, some (addresses.of 2)), (3, some (addresses.of 3))] := by decide +kernel

/-- They leave again. -/
example : (followed alone addresses freedom joined 6).app.nodes = [] ∧ (followed alone addresses freedom joined 6).app.calls[2]? = some (.done (.ok ())) := by decide +kernel

/-- **C137 is violated**: if 223 multi channel nodes join, the update fails. -/
theorem C137_violated : ¬ C137_statement := by
  intro h
  have hq : alone.questions = 2 := by decide +kernel
  obtain ⟨m, hm⟩ := h alone Props.Startup.crowded addresses freedom [] alone_regular (by rw [hq]; decide) Props.Startup.crowded_regular rfl (by decide +kernel)
  obtain ⟨hs, hn⟩ := C137_settled alone [] alone_regular (by rw [hq]; decide)
  have hlen : (started alone [] alone.questions).app.calls.length = 1 := by decide +kernel
  have hnews : Props.Startup.crowded.news (started alone [] alone.questions).app.nodes = 446 := by decide +kernel
  obtain ⟨m', hm'⟩ := C137_overflow_partial Props.Startup.crowded addresses freedom _ Props.Startup.crowded_regular hs (by decide +kernel) (by rw [hn, hq]; decide) (by rw [hnews, hn, hq]; decide)
  have e1 := hm (m + m') (by omega)
  have e2 := hm' (m + m') (by omega)
  rw [hlen, e1] at e2
  cases e2

end Props.Follow
