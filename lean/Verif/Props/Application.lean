import Verif.Lemmas.Application
/-!
# The application (C53-C57, C94, C95)

C53, C54 and C95 are about one call of `nodeListUpdated()` or `startup()` that is not disturbed by another one: the state `s` in which the call has returned, however the
answers of the adapter and the listeners came, if the answers of the adapter describe a network `net` (`Spec/Application.lean`). C57 and C94 are about all interleavings.
-/
namespace Props.App
open Model Model.App Model.Classes Spec.App Lemmas.App
open Model.Listen (Ret)
open Spec (Bytes)

/-! ## An example -/

def plain : Info := ⟨[0x25], 4, 16, 1, true⟩
def multi : Info := ⟨[0x60, 0x25], 4, 16, 1, true⟩

/-- Controller 1 and the nodes 2 and 3; node 3 has two end points. -/
def net123 : Net := ⟨[1, 2, 3], fun n => if n = 3 then multi else plain, fun _ => 2, fun _ _ => plain⟩

/-- Node 2 has left and node 4 has joined. -/
def net134 : Net := { net123 with list := [4, 1, 3] }

/-- The answers to `startup()`. -/
def answers123 : List Ans :=
  [.list (.ok [1, 2, 3]), .info (.ok plain), .info (.ok multi), .eps (.ok 2), .cap (.ok plain), .cap (.ok plain), .failed (.ok ()), .asked (.ok ())] ++
    List.replicate 4 (.asked (.ok ()))

def started : State := run (fresh 1) (.start .startup :: answers123.map (.answer 0))

/-- The answers to `nodeListUpdated()`. -/
def answers134 : List Ans := [.list (.ok [4, 1, 3]), .asked (.ok ()), .asked (.ok ()), .info (.ok plain), .asked (.ok ()), .asked (.ok ())]

def updated : State := run started (.start .update :: answers134.map (.answer 1))

example : started.calls = [.done (.ok ())] ∧ Dict.keys started.nodes = ["2:0", "3:0", "3:1", "3:2"].map String.toList := by decide +kernel
example : updated.calls = [.done (.ok ()), .done (.ok ())] ∧ Dict.keys updated.nodes = ["3:0", "3:1", "3:2", "4:0"].map String.toList := by decide +kernel

instance (net : Net) : DecidablePred (Truthful net) := fun e => by cases e <;> dsimp only [Truthful] <;> infer_instance

instance (net : Net) (evs : List Ev) : Decidable (Reports net evs) := inferInstanceAs (Decidable (∀ e ∈ evs, Truthful net e))

theorem started_history : History 1 started :=
  .next .startup net123 answers123 .fresh (fun _ => rfl) (by decide +kernel) rfl (by decide +kernel) (by decide +kernel)

theorem updated_history : History 1 updated :=
  .next .update net134 answers134 started_history (by simp) (by decide +kernel) rfl (by decide +kernel) (by decide +kernel)

/-! ## C53: which nodes there are -/

/-- After any history of updates and startups that do not overlap and end normally the table is in order and does not contain the controller itself:
the hypotheses of the theorems below hold. -/
theorem C53_orderly {own : Nat} {s : State} (h : History own s) : Orderly s.nodes ∧ s.own = own ∧ ∀ k nd, (k, nd) ∈ s.nodes → nd.root ≠ own := by
  have ho : s.own = own := by
    obtain ⟨ops, rfl⟩ := history_run h
    rw [run_own]; rfl
  refine ⟨?_, ho, ?_⟩
  · induction h with
    | fresh => exact ⟨by simp [fresh, Dict.keys], by simp [fresh], by simp [fresh]⟩
    | next k net answers h0 hk hl hs hr hend ih =>
      have hw := ih (by obtain ⟨ops, rfl⟩ := history_run h0; rw [run_own]; rfl)
      obtain ⟨new, hB⟩ := done_base hw hl hk hs hr hend
      exact orderly_done hw hl hB
  · obtain ⟨ops, rfl⟩ := history_run h
    intro k nd hk
    rw [← ho]
    exact ((w_run own ops).table k nd hk).1

section
variable {s0 s : State} {k : Kind} {net : Net} {answers : List Ans}

/-- The table is: the nodes there were before and that are still in the list, the same objects as before; then the new nodes with their end points, as described by
the network, each a new object. The table is in order again. -/
theorem C53_nodes (hw : Orderly s0.nodes) (hl : net.list.Nodup) (h0 : k = .startup → s0.nodes = [])
    (hs : s = run s0 (.start k :: answers.map (.answer s0.calls.length))) (hr : Reports net (since s0 s)) (hend : s.calls[s0.calls.length]? = some (.done (.ok ()))) :
    ∃ new : List Nd, s.nodes = s0.nodes.filter (fun p => p.2.root ∈ net.list) ++ new.map (fun nd => (nd.id, nd)) ∧
      new.map descr = newNodes s0.own net (fun n => key n 0 ∈ Dict.keys s0.nodes) net.list ∧
      new.map (·.obj) = List.range' s0.objs new.length ∧ Orderly s.nodes := by
  obtain ⟨new, hB⟩ := done_base hw hl h0 hs hr hend
  refine ⟨new, hB.nodes, ?_, hB.fresh, orderly_done hw hl hB⟩
  have e := hB.descr
  rw [List.append_nil] at e
  rw [e]
  congr 1
  funext n
  rw [Bool.eq_iff_iff, mem_iff]
  simp

/-- Which ids there are: those of the controller's other nodes; a node known before has the end points it had, a new one has the reported ones. -/
theorem C53_ids (hw : Orderly s0.nodes) (hown : ∀ k nd, (k, nd) ∈ s0.nodes → nd.root ≠ s0.own) (hl : net.list.Nodup) (h0 : k = .startup → s0.nodes = [])
    (hs : s = run s0 (.start k :: answers.map (.answer s0.calls.length))) (hr : Reports net (since s0 s)) (hend : s.calls[s0.calls.length]? = some (.done (.ok ()))) (n e : Nat) :
    key n e ∈ Dict.keys s.nodes ↔ n ∈ net.list ∧ n ≠ s0.own ∧
      if key n 0 ∈ Dict.keys s0.nodes then key n e ∈ Dict.keys s0.nodes else e = 0 ∨ (multiChannel (net.info n) = true ∧ e ≤ net.eps n) := by
  obtain ⟨new, hB⟩ := done_base hw hl h0 hs hr hend
  have hroot : key n e ∈ Dict.keys s0.nodes → key n 0 ∈ Dict.keys s0.nodes ∧ n ≠ s0.own := by
    intro h
    obtain ⟨⟨a, b⟩, hab, he⟩ := List.mem_map.1 h
    have h5 := hw.ids a b hab
    dsimp only at he
    rw [he] at h5
    rw [(key_inj h5).1]
    exact ⟨hw.roots a b hab, hown a b hab⟩
  rw [keys_base hB, List.append_nil, mem_newNodes]
  constructor
  · rintro (h | ⟨h1, h2, h3, h4⟩)
    · have hk := kept_keys h
      have hn : n ∈ net.list := by
        obtain ⟨⟨a, b⟩, hab, he⟩ := List.mem_map.1 h
        obtain ⟨h1, h2⟩ := List.mem_filter.1 hab
        have h5 := hw.ids a b h1
        dsimp only at he
        rw [he] at h5
        rw [(key_inj h5).1]
        simpa using h2
      exact ⟨hn, (hroot hk).2, by rw [if_pos (hroot hk).1]; exact hk⟩
    · refine ⟨h1, h2, ?_⟩
      rw [if_neg (fun h => by rw [(mem_iff _ _).2 h] at h3; cases h3)]
      exact h4
  · rintro ⟨h1, h2, h3⟩
    split at h3
    · exact .inl ((mem_kept hw h1).2 h3)
    · rename_i hk
      refine .inr ⟨h1, h2, ?_, h3⟩
      rw [← Bool.not_eq_true, mem_iff]
      exact hk

/-- A node that is known and still in the list keeps its object. -/
theorem C53_kept (hw : Orderly s0.nodes) (hl : net.list.Nodup) (h0 : k = .startup → s0.nodes = [])
    (hs : s = run s0 (.start k :: answers.map (.answer s0.calls.length))) (hr : Reports net (since s0 s)) (hend : s.calls[s0.calls.length]? = some (.done (.ok ())))
    (nd : Nd) (h : (nd.id, nd) ∈ s0.nodes) (hn : nd.root ∈ net.list) : (nd.id, nd) ∈ s.nodes := by
  obtain ⟨new, hB⟩ := done_base hw hl h0 hs hr hend
  rw [hB.nodes]
  exact List.mem_append_left _ (List.mem_filter.2 ⟨h, by simpa using hn⟩)

/-- The call does not fail unless the adapter or a listener raises, or node information is reported that no node can be made from. -/
theorem C53_succeeds (hw : Orderly s0.nodes) (hl : net.list.Nodup) (h0 : k = .startup → s0.nodes = [])
    (hs : s = run s0 (.start k :: answers.map (.answer s0.calls.length))) (hr : Reports net (since s0 s))
    (hok : ∀ a ∈ answers, a.raises = false) (hacc : (∀ n, Accepted (net.info n)) ∧ ∀ n e, Accepted (net.cap n e)) (e : PyErr) :
    s.calls[s0.calls.length]? ≠ some (.done (.error e)) := by
  subst hs
  intro hend
  have hI := inv_run (bad := False) hw hl h0 answers (fun a ha hra => by rw [hok a ha] at hra; cases hra) (.inl hacc) hr
  obtain ⟨_, _, pc, hpc, hat⟩ := hI
  rw [hend] at hpc
  obtain rfl := Option.some.inj hpc
  exact hat

example : Orderly started.nodes ∧ net134.list.Nodup ∧ Reports net134 (since started updated) ∧ updated.calls[started.calls.length]? = some (.done (.ok ())) :=
  ⟨(C53_orderly started_history).1, by decide +kernel, by decide +kernel, by decide +kernel⟩
example : ∃ nd, ((Nd.id nd, nd) ∈ started.nodes ∧ nd.root ∈ net134.list) ∧ nd.ep = 2 := ⟨⟨3, 3, 2, plain⟩, by decide +kernel, rfl⟩
example : ∀ a ∈ answers134, a.raises = false := by decide +kernel
example : (∀ n, Accepted (net134.info n)) ∧ ∀ n e, Accepted (net134.cap n e) := by
  have h1 : Accepted plain := ⟨_, rfl⟩
  have h2 : Accepted multi := ⟨_, rfl⟩
  refine ⟨fun n => ?_, fun _ _ => h1⟩
  simp only [net134, net123]
  split
  · exact h2
  · exact h1

/-! ## C54: what the listeners are told -/

/-- What an update tells the listeners, in this order: every node whose id is gone from the list, one by one and then together; then the new nodes, together and then
one by one. Nothing is told together if there is nothing to tell. -/
theorem C54_told (hw : Orderly s0.nodes) (hl : net.list.Nodup)
    (hs : s = run s0 (.start .update :: answers.map (.answer s0.calls.length))) (hr : Reports net (since s0 s)) (hend : s.calls[s0.calls.length]? = some (.done (.ok ()))) :
    ∃ (gone : List Str) (new : List Nd), gone = Dict.keys (s0.nodes.filter fun p => p.2.root ∉ net.list) ∧
      s.nodes = s0.nodes.filter (fun p => p.2.root ∈ net.list) ++ new.map (fun nd => (nd.id, nd)) ∧
      told (since s0 s) = gone.map (.removed s0.calls.length) ++ (if gone = [] then [] else [.removedAll s0.calls.length gone]) ++
        if new = [] then [] else .addedAll s0.calls.length new :: new.map (.added s0.calls.length) := by
  obtain ⟨new, hB⟩ := done_base hw hl (by simp) hs hr hend
  refine ⟨gone s0 net, new, rfl, hB.nodes, ?_⟩
  rw [hB.told]
  simp [removals]

theorem count_one {α : Type} [BEq α] [LawfulBEq α] [DecidableEq α] {l : List α} {a : α} (hn : l.Nodup) (h : a ∈ l) : l.count a = 1 := by
  induction l with
  | nil => simp at h
  | cons b l ih =>
    rw [List.nodup_cons] at hn
    rw [List.count_cons]
    rcases List.mem_cons.1 h with rfl | h
    · rw [List.count_eq_zero.2 hn.1]; simp
    · have : b ≠ a := fun e => hn.1 (e ▸ h)
      rw [ih hn.2 h]; simp [this]

theorem count_map_inj {α : Type} [BEq α] [LawfulBEq α] [DecidableEq α] (f : α → Ev) (hf : ∀ a b, f a = f b → a = b) (l : List α) (a : α) : (l.map f).count (f a) = l.count a := by
  induction l with
  | nil => rfl
  | cons b l ih =>
    rw [List.map_cons, List.count_cons, List.count_cons, ih]
    congr 1
    by_cases h : b = a
    · subst h; simp
    · have h' : ¬ f b = f a := fun e => h (hf _ _ e)
      simp [h, h']

/-- A node is reported as removed, once, exactly if its id was in the table and is not any more. -/
theorem C54_removed (hw : Orderly s0.nodes) (hl : net.list.Nodup)
    (hs : s = run s0 (.start .update :: answers.map (.answer s0.calls.length))) (hr : Reports net (since s0 s)) (hend : s.calls[s0.calls.length]? = some (.done (.ok ()))) (q : Str) :
    (told (since s0 s)).count (.removed s0.calls.length q) = if q ∈ Dict.keys s0.nodes ∧ q ∉ Dict.keys s.nodes then 1 else 0 := by
  obtain ⟨new, hB⟩ := done_base hw hl (by simp) hs hr hend
  have e : (told (since s0 s)).count (.removed s0.calls.length q) = (gone s0 net).count q := by
    rw [hB.told, removals, List.count_append, List.count_append, count_map_inj _ (by simp)]
    have h1 : List.count (Ev.removed s0.calls.length q) (if gone s0 net = [] then [] else [.removedAll s0.calls.length (gone s0 net)]) = 0 := by
      split <;> simp
    have h2 : List.count (Ev.removed s0.calls.length q)
        (if new = [] ∧ Kind.update = .update then [] else .addedAll s0.calls.length new :: new.map (.added s0.calls.length)) = 0 := by
      split
      · simp
      · rw [List.count_eq_zero]; simp
    rw [h1, h2]; simp
  have hnd : (gone s0 net).Nodup := (List.filter_sublist.map Prod.fst).nodup hw.nodup
  have hiff : q ∈ gone s0 net ↔ q ∈ Dict.keys s0.nodes ∧ q ∉ Dict.keys s.nodes := by
    constructor
    · intro h
      obtain ⟨⟨a, b⟩, hab, rfl⟩ := List.mem_map.1 h
      obtain ⟨h1, h2⟩ := List.mem_filter.1 hab
      refine ⟨List.mem_map.2 ⟨_, h1, rfl⟩, ?_⟩
      rw [hw.ids a b h1, Nd.id, keys_base hB]
      rintro (h | ⟨x, hx, hx1, hx2⟩)
      · obtain ⟨⟨c, d⟩, hcd, he⟩ := List.mem_map.1 h
        obtain ⟨h3, h4⟩ := List.mem_filter.1 hcd
        have h5 := hw.ids c d h3
        dsimp only at he
        rw [he] at h5
        rw [← (key_inj h5).1] at h4
        simp at h2 h4
        exact h2 h4
      · rw [List.append_nil] at hx
        have := (newNodes_root hx).1
        rw [hx1] at this
        simp at h2
        exact h2 this
    · rintro ⟨h1, h2⟩
      obtain ⟨⟨a, b⟩, hab, rfl⟩ := List.mem_map.1 h1
      refine List.mem_map.2 ⟨(a, b), List.mem_filter.2 ⟨hab, ?_⟩, rfl⟩
      rcases Decidable.em (b.root ∈ net.list) with h | h
      · exfalso
        apply h2
        rw [hB.nodes]
        simp only [Dict.keys, List.map_append, List.mem_append]
        exact .inl (List.mem_map.2 ⟨(a, b), List.mem_filter.2 ⟨hab, by simpa using h⟩, rfl⟩)
      · simpa using h
  rw [e]
  split
  · rename_i h; exact count_one hnd (hiff.2 h)
  · rename_i h; rw [List.count_eq_zero]; exact fun hm => h (hiff.1 hm)

/-- A node is reported as added, once, exactly if it is in the table and its id was not before. -/
theorem C54_added (hw : Orderly s0.nodes) (hl : net.list.Nodup)
    (hs : s = run s0 (.start .update :: answers.map (.answer s0.calls.length))) (hr : Reports net (since s0 s)) (hend : s.calls[s0.calls.length]? = some (.done (.ok ()))) (nd : Nd) :
    (told (since s0 s)).count (.added s0.calls.length nd) = if (nd.id, nd) ∈ s.nodes ∧ nd.id ∉ Dict.keys s0.nodes then 1 else 0 := by
  obtain ⟨new, hB⟩ := done_base hw hl (by simp) hs hr hend
  have e : (told (since s0 s)).count (.added s0.calls.length nd) = new.count nd := by
    rw [hB.told, removals, List.count_append, List.count_append]
    have h0 : List.count (Ev.added s0.calls.length nd) ((gone s0 net).map (.removed s0.calls.length)) = 0 := by rw [List.count_eq_zero]; simp
    have h1 : List.count (Ev.added s0.calls.length nd) (if gone s0 net = [] then [] else [.removedAll s0.calls.length (gone s0 net)]) = 0 := by
      split <;> simp
    rw [h0, h1]
    split
    · rename_i h; rw [h.1]; simp
    · rw [List.count_cons, count_map_inj _ (by simp)]; simp
  have hnd : new.Nodup := by
    have := new_nodup hl hB
    rw [List.nodup_iff_pairwise_ne, List.pairwise_map] at this
    exact this.imp fun h he => h (by rw [he])
  have hiff : nd ∈ new ↔ (nd.id, nd) ∈ s.nodes ∧ nd.id ∉ Dict.keys s0.nodes := by
    constructor
    · intro h
      refine ⟨?_, new_unknown hw hB h⟩
      rw [hB.nodes]
      exact List.mem_append_right _ (List.mem_map.2 ⟨nd, h, rfl⟩)
    · rintro ⟨h1, h2⟩
      rw [hB.nodes] at h1
      rcases List.mem_append.1 h1 with h | h
      · exact absurd (List.mem_map.2 ⟨_, (List.mem_filter.1 h).1, rfl⟩) h2
      · obtain ⟨x, hx, he⟩ := List.mem_map.1 h
        simp only [pair, Prod.mk.injEq] at he
        rw [← he.2]; exact hx
  rw [e]
  split
  · rename_i h; exact count_one hnd (hiff.2 h)
  · rename_i h; rw [List.count_eq_zero]; exact fun hm => h (hiff.1 hm)

example : told (since started updated) =
    [.removed 1 "2:0".toList, .removedAll 1 ["2:0".toList], .addedAll 1 [⟨4, 4, 0, plain⟩], .added 1 ⟨4, 4, 0, plain⟩] := by decide +kernel

/-! ## C95: startup -/

/-- Startup of an application without nodes: the table gets exactly the controller's other nodes and the end points of the multi channel nodes, and the listeners are
told about all of them together and then one by one, and about nothing else. -/
theorem C95_started (hl : net.list.Nodup) (h0 : s0.nodes = [])
    (hs : s = run s0 (.start .startup :: answers.map (.answer s0.calls.length))) (hr : Reports net (since s0 s)) (hend : s.calls[s0.calls.length]? = some (.done (.ok ()))) :
    ∃ new : List Nd, s.nodes = new.map (fun nd => (nd.id, nd)) ∧ new.map descr = newNodes s0.own net (fun _ => false) net.list ∧
      told (since s0 s) = .addedAll s0.calls.length new :: new.map (.added s0.calls.length) := by
  have hw : Orderly s0.nodes := by rw [h0]; exact ⟨by simp [Dict.keys], by simp, by simp⟩
  obtain ⟨new, hB⟩ := done_base hw hl (fun _ => h0) hs hr hend
  have hg : gone s0 net = [] := by simp [gone, h0, Dict.keys]
  refine ⟨new, ?_, ?_, ?_⟩
  · rw [hB.nodes]; simp [kept, h0, pair]
  · have e := hB.descr
    rw [List.append_nil] at e
    rw [e, h0]
    congr 1
  · rw [hB.told]; simp [removals, hg]

example : (fresh 1).nodes = [] ∧ Reports net123 (since (fresh 1) started) ∧ started.calls[(fresh 1).calls.length]? = some (.done (.ok ())) := by decide +kernel
end

/-! ## C57: overlapping calls -/

/-- In every interleaving of updates from a state reached without overlaps: if nobody raises and the adapter describes one network throughout, no update fails;
and if the list changes, the nodes are those of the list that was reported last once all updates have ended. -/
def C57_statement : Prop :=
  (∀ (own : Nat) (s0 : State) (net : Net) (ops : List Op), History own s0 → (∀ o ∈ ops, o = .start .update ∨ ∃ i a, o = .answer i a ∧ a.raises = false) →
    Reports net (since s0 (run s0 ops)) → (∀ n, Accepted (net.info n)) → (∀ n e, Accepted (net.cap n e)) →
    ∀ (i : Nat) (e : PyErr), (run s0 ops).calls[i]? ≠ some (.done (.error e))) ∧
  (∀ (own : Nat) (s0 : State) (ops : List Op) (l : List Nat), History own s0 → (∀ o ∈ ops, o = .start .update ∨ ∃ i a, o = .answer i a ∧ a.raises = false) →
    (∀ pc ∈ (run s0 ops).calls, pc = Pc.done (.ok ())) →
    ((since s0 (run s0 ops)).filterMap fun e => match e with | .gotList _ l => some l | _ => none).getLast? = some l →
    ∀ k nd, (k, nd) ∈ (run s0 ops).nodes → nd.root ∈ l)

/-- Nodes 2 and 3 have left. The first update removes node 2 and waits for the listeners, the second one removes node 3; then the first one cannot remove node 3 any more. -/
def bothRemove : List Op := [.start .update, .start .update, .answer 1 (.list (.ok [1])), .answer 2 (.list (.ok [1])), .answer 1 (.asked (.ok ()))]

def netGone : Net := { net123 with list := [1] }

/-- The first update has the list with node 4 and waits for its information; meanwhile the node leaves and the second update runs. -/
def bothLoad : List Op := [.start .update, .answer 1 (.list (.ok [1, 2, 3, 4])), .start .update, .answer 2 (.list (.ok [1, 2, 3])), .answer 1 (.info (.ok plain)),
  .answer 1 (.asked (.ok ())), .answer 1 (.asked (.ok ()))]

theorem ops_ok {ops : List Op} (h : (ops.all fun o => match o with | .start .update => true | .start .startup => false | .answer _ a => !a.raises) = true) :
    ∀ o ∈ ops, o = .start .update ∨ ∃ i a, o = .answer i a ∧ a.raises = false := by
  intro o ho
  have := List.all_eq_true.1 h o ho
  cases o with
  | start k => cases k <;> simp_all
  | answer i a => exact .inr ⟨i, a, rfl, by simpa using this⟩

/-- It fails with a KeyError. -/
theorem C57_violated : ¬ C57_statement := by
  intro h
  refine h.1 1 started netGone bothRemove started_history (ops_ok (by decide +kernel)) (by decide +kernel) ?_ ?_ 1 .key (by decide +kernel)
  · intro n
    simp only [netGone, net123]
    split
    · exact ⟨_, rfl⟩
    · exact ⟨_, rfl⟩
  · intro n e; exact ⟨_, rfl⟩

/-- And the second half does not hold either: both updates end normally and node 4 stays, although the last list does not have it. -/
theorem C57_violated_stale : (∀ pc ∈ (run started bothLoad).calls, pc = Pc.done (.ok ())) ∧
    ((since started (run started bothLoad)).filterMap fun e => match e with | .gotList _ l => some l | _ => none) = [[1, 2, 3, 4], [1, 2, 3]] ∧
    (key 4 0) ∈ Dict.keys (run started bothLoad).nodes := by decide +kernel

/-- Two updates that overlap can also load a node twice: the listeners are told about two objects for node 4. -/
theorem C57_violated_twice :
    let s := run started [.start .update, .start .update, .answer 1 (.list (.ok [1, 2, 3, 4])), .answer 2 (.list (.ok [1, 2, 3, 4])), .answer 1 (.info (.ok plain)),
      .answer 2 (.info (.ok plain)), .answer 1 (.asked (.ok ())), .answer 2 (.asked (.ok ()))]
    Ev.added 1 ⟨4, 4, 0, plain⟩ ∈ s.trace ∧ Ev.added 2 ⟨5, 4, 0, plain⟩ ∈ s.trace := by decide +kernel

/-- What holds for every interleaving of updates and startups and all answers, also exceptions: every node is entered once and under its own id, the controller itself is
never entered, and every node in the table has been reported by the adapter as it is there. -/
theorem C57_table_partial (own : Nat) (ops : List Op) :
    (Dict.keys (run (fresh own) ops).nodes).Nodup ∧
    ∀ k nd, (k, nd) ∈ (run (fresh own) ops).nodes → k = nd.id ∧ Reported (run (fresh own) ops) nd :=
  ⟨(w_run own ops).nodup, fun k nd h => ⟨(w_run own ops).ids k nd h, (w_run own ops).table k nd h⟩⟩

/-- And the listeners are only told about nodes that have been reported. -/
theorem C57_told_partial (own : Nat) (ops : List Op) (i : Nat) :
    (∀ nd, Ev.added i nd ∈ (run (fresh own) ops).trace → Reported (run (fresh own) ops) nd) ∧
    ∀ nds, Ev.addedAll i nds ∈ (run (fresh own) ops).trace → ∀ nd ∈ nds, Reported (run (fresh own) ops) nd :=
  ⟨fun _ h => (w_run own ops).evs _ h, fun _ h => (w_run own ops).evs _ h⟩

/-! ## C94: every node is announced -/

/-- When no call is running every node in the table has been announced. -/
def C94_statement : Prop := ∀ (own : Nat) (ops : List Op), (∀ pc ∈ (run (fresh own) ops).calls, ∃ r, pc = Pc.done r) →
  ∀ k nd, (k, nd) ∈ (run (fresh own) ops).nodes → ∃ j, Ev.added j nd ∈ (run (fresh own) ops).trace

/-- Node 3 is entered, then asking for its end points fails; the next update finds it in the table and does not announce it. -/
def unanswered : List Op := [.start .update, .answer 0 (.list (.ok [1, 3])), .answer 0 (.info (.ok multi)), .answer 0 (.eps (.error .timeout)),
  .start .update, .answer 1 (.list (.ok [1, 3]))]

theorem C94_violated : ¬ C94_statement := by
  intro h
  have hd : ∀ pc ∈ (run (fresh 1) unanswered).calls, ∃ r, pc = Pc.done r := by
    have e : (run (fresh 1) unanswered).calls = [.done (.error .timeout), .done (.ok ())] := by decide +kernel
    rw [e]
    simp
  obtain ⟨j, hj⟩ := h 1 unanswered hd (key 3 0) ⟨0, 3, 0, multi⟩ (by decide +kernel)
  have : ((run (fresh 1) unanswered).trace.any fun e => match e with | .added _ _ => true | _ => false) = false := by decide +kernel
  rw [List.any_eq_false] at this
  exact this _ hj rfl

/-- It holds for histories of calls that do not overlap and end normally. -/
theorem C94_announced_partial {own : Nat} {s : State} (h : History own s) : ∀ k nd, (k, nd) ∈ s.nodes → ∃ j, Ev.added j nd ∈ s.trace := by
  induction h with
  | fresh => simp [fresh]
  | @next s0 s k net answers hh h0 hl hs hr hend ih =>
    intro q nd hq
    obtain ⟨new, hB⟩ := done_base (C53_orderly hh).1 hl h0 hs hr hend
    have hpre : s0.trace <+: s.trace := by
      have hI := inv_run (bad := True) (C53_orderly hh).1 hl h0 answers (fun _ _ _ => trivial) (.inr trivial) (by rw [← hs]; exact hr)
      rw [hs]; exact hI.trace
    rw [hB.nodes] at hq
    rcases List.mem_append.1 hq with hq | hq
    · obtain ⟨j, hj⟩ := ih q nd (List.mem_filter.1 hq).1
      exact ⟨j, hpre.subset hj⟩
    · obtain ⟨x, hx, he⟩ := List.mem_map.1 hq
      simp only [pair, Prod.mk.injEq] at he
      refine ⟨s0.calls.length, ?_⟩
      have hm : Ev.added s0.calls.length nd ∈ told (since s0 s) := by
        rw [hB.told, if_neg (by rintro ⟨h, _⟩; rw [h] at hx; simp at hx)]
        exact List.mem_append_right _ (List.mem_cons_of_mem _ (List.mem_map.2 ⟨nd, by rw [← he.2]; exact hx, rfl⟩))
      exact List.mem_of_mem_drop (List.mem_filter.1 hm).1

/-! ## C55: messages -/

section
variable {t : Dict Str Nd} (own : Nat) (handle : Nd → Py Ret) (asked : Py Unit) (n e : Nat)

/-- Node ids are unambiguous. -/
theorem C55_unambiguous {r r' ep ep' : Nat} : key r ep = key r' ep' ↔ r = r' ∧ ep = ep' := ⟨key_inj, by rintro ⟨rfl, rfl⟩; rfl⟩

/-- A message from node `n` end point `e` is handed to that node; it counts as handled if the node says so. -/
theorem C55_handed (hw : Orderly t) {nd : Nd} (h : (nd.id, nd) ∈ t) (hn : nd.root = n) (he : nd.ep = e) :
    messageReceived t own handle asked n e = ([.handed nd], (handle nd).map Ret.truthy) := by
  have hk : t.get? (key n e) = some nd := by
    subst hn he
    have hs : (t.get? nd.id).isSome := (Dict.get?_isSome_iff _ _).2 (List.mem_map.2 ⟨_, h, rfl⟩)
    obtain ⟨v, hv⟩ := Option.isSome_iff_exists.1 hs
    have hm := Dict.mem_of_get? hv
    have : v = nd := by
      have hnd := hw.nodup
      clear hs hv hw
      induction t with
      | nil => simp at h
      | cons p t ih =>
        simp only [Dict.keys, List.map_cons, List.nodup_cons] at hnd
        rcases List.mem_cons.1 hm with hm | hm <;> rcases List.mem_cons.1 h with h | h
        · rw [← hm] at h; exact (Prod.mk.inj h).2.symm
        · rw [← hm] at hnd; exact absurd (List.mem_map.2 ⟨_, h, rfl⟩) hnd.1
        · rw [← h] at hnd; exact absurd (List.mem_map.2 ⟨_, hm, rfl⟩) hnd.1
        · exact ih h hm hnd.2
    rw [this] at hv; exact hv
  unfold messageReceived
  rw [hk]

/-- It is handed to no other node. -/
theorem C55_only (hw : Orderly t) {nd : Nd} (h : .handed nd ∈ (messageReceived t own handle asked n e).1) : nd.root = n ∧ nd.ep = e ∧ (nd.id, nd) ∈ t := by
  unfold messageReceived at h
  split at h
  · rename_i x hx
    simp only [List.mem_singleton, Act.handed.injEq] at h
    subst h
    have hm := Dict.mem_of_get? hx
    have := hw.ids _ _ hm
    obtain ⟨h1, h2⟩ := key_inj this
    exact ⟨h1.symm, h2.symm, by rw [← this]; exact hm⟩
  · split at h <;> simp at h

/-- A message from a node or end point that is not in the table is not handled, unless it is from the controller itself: then the listeners are asked. -/
theorem C55_unknown (hw : Orderly t) (h : ∀ k nd, (k, nd) ∈ t → ¬ (nd.root = n ∧ nd.ep = e)) :
    messageReceived t own handle asked n e = if n = own then ([.asked], asked.map fun _ => true) else ([], .ok false) := by
  have hk : t.get? (key n e) = none := by
    rw [Dict.get?_eq_none_iff]
    intro hm
    obtain ⟨⟨a, b⟩, hab, he⟩ := List.mem_map.1 hm
    have := hw.ids a b hab
    dsimp only at he
    rw [he] at this
    obtain ⟨h1, h2⟩ := key_inj this
    exact h a b hab ⟨h1.symm, h2.symm⟩
  unfold messageReceived
  rw [hk]
  by_cases ho : n = own <;> simp [ho]
end

example : messageReceived started.nodes 1 (fun _ => .ok (.bool true)) (.ok ()) 3 2 = ([.handed ⟨3, 3, 2, plain⟩], .ok true) :=
  C55_handed 1 _ _ 3 2 (C53_orderly started_history).1 (by decide +kernel) rfl rfl
example : ∀ k nd, (k, nd) ∈ started.nodes → ¬ (nd.root = 3 ∧ nd.ep = 7) := by
  have h : ∀ p ∈ started.nodes, ¬ (p.2.root = 3 ∧ p.2.ep = 7) := by decide +kernel
  exact fun k nd hk => h _ hk

/-! ## C56: inclusion and exclusion status -/

/-- The message is a Z/IP packet with command `c`. -/
def Carries (m c : Msg) : Prop := m.hid = 0x2302 ∧ m.command = some c

section
variable (ask : Note → Py (List Ret)) {m c : Msg}

/-- What is not a Z/IP packet, or has no command, is not handled. -/
theorem C56_ignored (h : ∀ c, ¬ Carries m c) : onMessageReceived ask m = ([], .ok false) := by
  unfold onMessageReceived
  split
  · rfl
  · rename_i hm
    cases hc : m.command with
    | none => rfl
    | some c => exact absurd ⟨Decidable.not_not.1 hm, hc⟩ (h c)

/-- A NodeAddStatus is reported, and handled unless a listener raises. -/
theorem C56_add (h : Carries m c) (hc : c.hid = 0x3402) : onMessageReceived ask m = ([.addNodeStatus c], (ask (.addNodeStatus c)).map fun _ => true) := by
  unfold onMessageReceived
  rw [if_neg (show ¬ m.hid ≠ Reg.Zip.ZipPacket.hid from fun h' => h' h.1), h.2]
  simp only
  rw [if_pos (show c.hid = Reg.NetworkManagementInclusion.NodeAddStatus.hid from hc)]

/-- A NodeRemoveStatus is reported; then, if no listener raises, removal of node 0 is signalled exactly if the status is DONE and the node id 0. -/
theorem C56_remove (h : Carries m c) (hc : c.hid = 0x3404) (hok : ∀ x, ∃ r, ask x = .ok r) :
    onMessageReceived ask m =
      (.removeNodeStatus c :: (if numAttr c "status" = some 6 ∧ numAttr c "nodeID" = some 0 then [.nodeRemoved 0, .nodesRemoved [0]] else []), .ok true) := by
  unfold onMessageReceived
  rw [if_neg (show ¬ m.hid ≠ Reg.Zip.ZipPacket.hid from fun h' => h' h.1), h.2]
  simp only
  rw [if_neg (show c.hid ≠ Reg.NetworkManagementInclusion.NodeAddStatus.hid by rw [hc]; decide), if_pos (show c.hid = Reg.NetworkManagementInclusion.NodeRemoveStatus.hid from hc)]
  obtain ⟨r1, h1⟩ := hok (.removeNodeStatus c)
  obtain ⟨r2, h2⟩ := hok (.nodeRemoved 0)
  obtain ⟨r3, h3⟩ := hok (.nodesRemoved [0])
  rw [h1, h2, h3]
  by_cases hs : numAttr c "status" = some 6 <;> by_cases hn : numAttr c "nodeID" = some 0 <;> simp [hs, hn, Except.map]

/-- Whatever the listeners do, removal of a node is signalled for nothing else, and only after the status. -/
theorem C56_removed_only (n : Nat) (h : .nodeRemoved n ∈ (onMessageReceived ask m).1) :
    n = 0 ∧ ∃ c, Carries m c ∧ c.hid = 0x3404 ∧ numAttr c "status" = some 6 ∧ numAttr c "nodeID" = some 0 ∧ (onMessageReceived ask m).1.head? = some (.removeNodeStatus c) := by
  unfold onMessageReceived at h ⊢
  split at h
  · simp at h
  · rename_i hm
    cases hc : m.command with
    | none => rw [hc] at h; simp at h
    | some c =>
      rw [hc] at h
      simp only at h ⊢
      split at h
      · simp at h
      · rename_i ha
        split at h
        · rename_i hr
          rw [if_neg hm, if_neg ha, if_pos hr]
          cases hr1 : ask (.removeNodeStatus c) with
          | error e => rw [hr1] at h; simp at h
          | ok r =>
            rw [hr1] at h
            simp only at h ⊢
            split at h
            · simp at h
            · rename_i hs
              split at h
              · rename_i hn
                refine ⟨?_, c, ⟨Decidable.not_not.1 hm, hc⟩, hr, Decidable.not_not.1 hs, hn, ?_⟩
                · split at h <;> simpa using h
                · rw [if_neg hs, if_pos hn]
                  split <;> rfl
              · simp at h
        · split at h <;> simp at h

/-- Any other command is passed to the listeners, and is handled exactly if one of them says True. -/
theorem C56_other (h : Carries m c) (h1 : c.hid ≠ 0x3402) (h2 : c.hid ≠ 0x3404) :
    onMessageReceived ask m = ([.messageReceived c], (ask (.messageReceived c)).map fun rs => rs.any fun r => r == .bool true) := by
  unfold onMessageReceived
  rw [if_neg (show ¬ m.hid ≠ Reg.Zip.ZipPacket.hid from fun h' => h' h.1), h.2]
  simp only
  rw [if_neg (show c.hid ≠ Reg.NetworkManagementInclusion.NodeAddStatus.hid from h1), if_neg (show c.hid ≠ Reg.NetworkManagementInclusion.NodeRemoveStatus.hid from h2)]
  cases ask (.messageReceived c) <;> rfl
end

/-! The messages of the examples, as decoded from the network. -/

def zipWith (c : Bytes) : Bytes := [0x23, 0x02, 0x00, 0x50, 0x07, 0x00, 0x00] ++ c

/-- DONE for node 0, DONE for node 9, and a NodeAddStatus. -/
def removeDone0 : Bytes := zipWith [0x34, 0x04, 0x01, 0x06, 0x00]
def removeDone9 : Bytes := zipWith [0x34, 0x04, 0x01, 0x06, 0x09]
def addDone : Bytes := zipWith [0x34, 0x02, 0x01, 0x06, 0x00, 0x09]
def basicSet : Bytes := zipWith [0x20, 0x01, 0xFF]

/-- What a listener that answers True is told and what comes back. -/
def seen (b : Bytes) : Option (List String × Option Bool) :=
  match decode b with
  | .error _ => none
  | .ok m =>
    let r := onMessageReceived (fun _ => .ok [.bool true]) m
    some (r.1.map (fun n => match n with
      | .addNodeStatus _ => "addNodeStatus"
      | .removeNodeStatus _ => "removeNodeStatus"
      | .nodeRemoved _ => "nodeRemoved"
      | .nodesRemoved _ => "nodesRemoved"
      | .messageReceived _ => "messageReceived"), r.2.toOption)

example : seen removeDone0 = some (["removeNodeStatus", "nodeRemoved", "nodesRemoved"], some true) := by decide +kernel
example : seen removeDone9 = some (["removeNodeStatus"], some true) := by decide +kernel
example : seen addDone = some (["addNodeStatus"], some true) := by decide +kernel
example : seen basicSet = some (["messageReceived"], some true) := by decide +kernel
example : seen [0x20, 0x01, 0xFF] = some ([], some false) := by decide +kernel

end Props.App
