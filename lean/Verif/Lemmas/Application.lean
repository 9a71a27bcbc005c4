import Verif.Spec.Application
import Verif.Lemmas.Text
import Verif.Lemmas.Dict
import Verif.Lemmas.Conn
import Verif.Lemmas.Mailbox
namespace Lemmas.App
open Model Model.App Spec.App
open Lemmas.Mailbox (getElem?_lt getElem?_set' getElem?_snoc)

theorem colon_not_mem (n : Nat) : ':' ∉ natStr n := digits_not_mem (natStr_digits n) (by decide)

theorem natStr_inj {a b : Nat} (h : natStr a = natStr b) : a = b := by
  rw [← decVal_natStr a, ← decVal_natStr b, h]

theorem key_inj {r e r' e' : Nat} (h : key r e = key r' e') : r = r' ∧ e = e' := by
  have h1 := pySplit1_cons ':' (natStr r) (natStr e) (colon_not_mem r)
  have h2 := pySplit1_cons ':' (natStr r') (natStr e') (colon_not_mem r')
  unfold key at h
  rw [h, h2] at h1
  simp only [Option.some.injEq, Prod.mk.injEq] at h1
  exact ⟨(natStr_inj h1.1).symm, (natStr_inj h1.2).symm⟩

theorem set_absent {κ α : Type} [DecidableEq κ] (d : Dict κ α) (k : κ) (v : α) (h : k ∉ Dict.keys d) : Dict.set d k v = d ++ [(k, v)] := by
  induction d with
  | nil => rfl
  | cons p d ih =>
    simp only [Dict.keys, List.map_cons, List.mem_cons, not_or] at h
    simp only [Dict.set]
    rw [if_neg (fun e => h.1 e.symm), ih h.2]
    rfl

theorem mem_iff {κ α : Type} [DecidableEq κ] (d : Dict κ α) (k : κ) : Dict.mem d k = true ↔ k ∈ Dict.keys d := by
  rw [Dict.mem, Dict.get?_isSome_iff]

/-! ## One call that is not disturbed -/

section
variable (s0 : State) (i : Nat) (net : Net) (k : Kind) (bad : Prop)

/-- The nodes that are removed. -/
def gone : List Str := Dict.keys (s0.nodes.filter fun p => p.2.root ∉ net.list)

/-- The nodes that are kept. -/
def kept : Dict Str Nd := s0.nodes.filter fun p => p.2.root ∈ net.list

/-- What the listeners are told about removed nodes. -/
def removals : List Ev := (gone s0 net).map (.removed i) ++ if gone s0 net = [] then [] else [.removedAll i (gone s0 net)]

def pair (nd : Nd) : Str × Nd := (nd.id, nd)

/-- The state while or after nodes are loaded. -/
structure Base (s : State) (new : List Nd) (P : List Nat) (extra : List (Nat × Nat × Info)) (ns : List Ev) : Prop where
  nodes : s.nodes = kept s0 net ++ new.map pair
  descr : new.map descr = newNodes s0.own net (fun n => s0.nodes.mem (key n 0)) P ++ extra
  objs : s.objs = s0.objs + new.length
  fresh : new.map (·.obj) = List.range' s0.objs new.length
  told : told (since s0 s) = removals s0 i net ++ ns

def Unknown (n : Nat) : Prop := n ≠ s0.own ∧ key n 0 ∉ Dict.keys s0.nodes

/-- Where the call is. -/
def At (s : State) : Pc → Prop
  | .list k' => k' = k ∧ s.nodes = s0.nodes ∧ s.objs = s0.objs ∧ Spec.App.told (since s0 s) = []
  | .removing todo all l => k = .update ∧ l = net.list ∧ all = gone s0 net ∧ s.objs = s0.objs ∧
      ∃ dn, gone s0 net = dn ++ todo ∧ dn ≠ [] ∧ s.nodes = s0.nodes.filter (fun p => p.1 ∉ dn) ∧ Spec.App.told (since s0 s) = dn.map (.removed i)
  | .removedAll l => k = .update ∧ l = net.list ∧ gone s0 net ≠ [] ∧ Base s0 i net s [] [] [] []
  | .info k' n rest new => k' = k ∧ ∃ P, net.list = P ++ n :: rest ∧ Unknown s0 n ∧ Base s0 i net s new P [] []
  | .eps k' nd rest new => k' = k ∧ nd.ep = 0 ∧ multiChannel (net.info nd.root) = true ∧
      ∃ P, net.list = P ++ nd.root :: rest ∧ Unknown s0 nd.root ∧ Base s0 i net s new P [(nd.root, 0, net.info nd.root)] []
  | .cap k' nd ep c rest new => k' = k ∧ multiChannel (net.info nd.root) = true ∧ 1 ≤ ep ∧ ep + c = net.eps nd.root ∧
      ∃ P, net.list = P ++ nd.root :: rest ∧ Unknown s0 nd.root ∧
        Base s0 i net s new P ((nd.root, 0, net.info nd.root) :: (List.range (ep - 1)).map fun e => (nd.root, e + 1, net.cap nd.root (e + 1))) []
  | .failed => k = .startup ∧ ∃ new, Base s0 i net s new net.list [] []
  | .addedAll k' new => k' = k ∧ (k = .update → new ≠ [] ∧ Base s0 i net s new net.list [] [.addedAll i new]) ∧
      (k = .startup → ∃ new', Base s0 i net s new' net.list [] [.addedAll i new'])
  | .adding k' todo size => k' = k ∧ (k = .startup → size = s.nodes.length) ∧
      ∃ dn, (k = .update → dn ++ todo ≠ []) ∧ Base s0 i net s (dn ++ todo) net.list [] (.addedAll i (dn ++ todo) :: dn.map (.added i))
  | .done (.ok _) => ∃ new, Base s0 i net s new net.list [] (if new = [] ∧ k = .update then [] else .addedAll i new :: new.map (.added i))
  | .done (.error _) => bad

/-- The invariant. -/
structure Inv (s : State) : Prop where
  own : s.own = s0.own
  trace : s0.trace <+: s.trace
  pc : ∃ pc, s.calls[i]? = some pc ∧ At s0 i net k bad s pc
end

variable {s0 : State} {i : Nat} {net : Net} {k : Kind} {bad : Prop}

theorem since_snoc {s : State} (h : s0.trace <+: s.trace) (e : Ev) : since s0 (s.see e) = since s0 s ++ [e] := by
  simp only [since, State.see]
  rw [List.drop_append_of_le_length h.length_le]

theorem told_snoc (l : List Ev) (e : Ev) : told (l ++ [e]) = told l ++ told [e] := by simp [told]

theorem trace_see {s : State} (h : s0.trace <+: s.trace) (e : Ev) : s0.trace <+: (s.see e).trace := h.trans (List.prefix_append _ _)

theorem told_see {s : State} (h : s0.trace <+: s.trace) (e : Ev) : told (since s0 (s.see e)) = told (since s0 s) ++ told [e] := by
  rw [since_snoc h, told_snoc]

/-- A call waiting at `pc`: what matters is the rest of the state. -/
theorem inv_goto {s : State} {j : Nat} (hown : s.own = s0.own) (htr : s0.trace <+: s.trace) (hi : j < s.calls.length) (hij : j = i) {pc : Pc}
    (h : At s0 i net k bad s pc) : Inv s0 i net k bad (s.goto j pc) := by
  subst hij
  refine ⟨hown, htr, pc, List.getElem?_set_self hi, ?_⟩
  have hB : ∀ {new P extra ns}, Base s0 j net s new P extra ns → Base s0 j net (s.goto j pc) new P extra ns := fun h => ⟨h.nodes, h.descr, h.objs, h.fresh, h.told⟩
  revert h hB
  generalize hg : s.goto j pc = s'
  have e1 : s'.nodes = s.nodes := by rw [← hg]; rfl
  have e2 : s'.objs = s.objs := by rw [← hg]; rfl
  have e3 : since s0 s' = since s0 s := by rw [← hg]; rfl
  intro h hB
  cases pc with
  | list k' => simpa only [At, e1, e2, e3] using h
  | removing todo all l => simpa only [At, e1, e2, e3] using h
  | removedAll l => obtain ⟨a, b, c, d⟩ := h; exact ⟨a, b, c, hB d⟩
  | info k' n rest new => obtain ⟨a, P, b, c, d⟩ := h; exact ⟨a, P, b, c, hB d⟩
  | eps k' nd rest new => obtain ⟨a, a2, a3, P, b, c, d⟩ := h; exact ⟨a, a2, a3, P, b, c, hB d⟩
  | cap k' nd ep c' rest new => obtain ⟨a, a2, a3, a4, P, b, c, d⟩ := h; exact ⟨a, a2, a3, a4, P, b, c, hB d⟩
  | failed => obtain ⟨a, new, d⟩ := h; exact ⟨a, new, hB d⟩
  | addedAll k' new => obtain ⟨a, b, c⟩ := h; exact ⟨a, fun x => ⟨(b x).1, hB (b x).2⟩, fun x => by obtain ⟨n, d⟩ := c x; exact ⟨n, hB d⟩⟩
  | adding k' todo size => obtain ⟨a, b, dn, c, d⟩ := h; exact ⟨a, by rw [e1]; exact b, dn, c, hB d⟩
  | done r =>
    cases r with
    | ok u => obtain ⟨new, d⟩ := h; exact ⟨new, hB d⟩
    | error e => exact h

theorem newNodes_append (own : Nat) (known : Nat → Bool) (a b : List Nat) : newNodes own net known (a ++ b) = newNodes own net known a ++ newNodes own net known b := by
  simp [newNodes]

/-- Roots of new nodes are in the list. -/
theorem newNodes_root {own : Nat} {known : Nat → Bool} {l : List Nat} {x : Nat × Nat × Info} (h : x ∈ newNodes own net known l) :
    x.1 ∈ l ∧ x.1 ≠ own ∧ known x.1 = false := by
  simp only [newNodes, List.mem_flatMap] at h
  obtain ⟨n, hn, hx⟩ := h
  split at hx
  · simp at hx
  · rename_i hc
    have : x.1 = n := by
      simp only [nodeAndEndPoints, List.mem_cons] at hx
      rcases hx with rfl | hx
      · rfl
      · split at hx
        · simp only [List.mem_map] at hx
          obtain ⟨e, _, rfl⟩ := hx
          rfl
        · simp at hx
    rw [this]
    exact ⟨hn, fun e => hc (.inl e), by cases hk : known n with | false => rfl | true => exact absurd (.inr hk) hc⟩

/-- For nodes of the list, the kept part of the table is as good as the whole. -/
theorem mem_kept (hw : Orderly s0.nodes) {n ep : Nat} (hn : n ∈ net.list) : key n ep ∈ Dict.keys (kept s0 net) ↔ key n ep ∈ Dict.keys s0.nodes := by
  simp only [Dict.keys, kept, List.mem_map, List.mem_filter, Prod.exists, exists_and_right, exists_eq_right]
  constructor
  · rintro ⟨nd, h1, _⟩; exact ⟨nd, h1⟩
  · rintro ⟨nd, h1⟩
    refine ⟨nd, h1, ?_⟩
    have := key_inj (hw.ids _ _ h1)
    simp [← this.1, hn]

/-- Which ids the table has while loading. -/
theorem keys_base {s : State} {new : List Nd} {P extra ns} (h : Base s0 i net s new P extra ns) {n ep : Nat} :
    key n ep ∈ Dict.keys s.nodes ↔ key n ep ∈ Dict.keys (kept s0 net) ∨
      ∃ x ∈ newNodes s0.own net (fun n => s0.nodes.mem (key n 0)) P ++ extra, x.1 = n ∧ x.2.1 = ep := by
  rw [h.nodes, ← h.descr]
  simp only [Dict.keys, List.map_append, List.mem_append, List.map_map]
  apply or_congr Iff.rfl
  simp only [List.mem_map, Function.comp_apply, pair]
  constructor
  · rintro ⟨nd, hnd, he⟩
    obtain ⟨rfl, rfl⟩ := key_inj he
    exact ⟨_, ⟨nd, hnd, rfl⟩, rfl, rfl⟩
  · rintro ⟨_, ⟨nd, hnd, rfl⟩, rfl, rfl⟩
    exact ⟨nd, hnd, rfl⟩

theorem newNodes_snoc (own : Nat) (known : Nat → Bool) (P : List Nat) (n : Nat) :
    newNodes own net known (P ++ [n]) = newNodes own net known P ++ if n = own ∨ known n then [] else nodeAndEndPoints net n := by
  simp [newNodes]

/-- The loading loop. -/
theorem inv_load (hw : Orderly s0.nodes) (hl : net.list.Nodup) (h0 : k = .startup → s0.nodes = []) (rest : List Nat) :
    ∀ (s : State) (P : List Nat) (new : List Nd), s.own = s0.own → s0.trace <+: s.trace → i < s.calls.length → net.list = P ++ rest →
      Base s0 i net s new P [] [] → Inv s0 i net k bad (load s i k new rest) := by
  induction rest with
  | nil =>
    intro s P new hown htr hi hL hB
    rw [List.append_nil] at hL
    subst hL
    unfold load
    cases k with
    | startup => exact inv_goto hown htr hi rfl ⟨rfl, new, hB⟩
    | update =>
      dsimp only
      split
      · rename_i hn
        subst hn
        exact inv_goto hown htr hi rfl ⟨[], by simpa using hB⟩
      · rename_i hn
        refine inv_goto (s := s.see (.addedAll i new)) (pc := .addedAll .update new) hown (trace_see htr _) hi rfl ⟨rfl, fun _ => ⟨hn, ?_⟩, by simp⟩
        refine ⟨hB.nodes, hB.descr, hB.objs, hB.fresh, ?_⟩
        rw [told_see htr, hB.told]
        simp [told]
  | cons n rest ih =>
    intro s P new hown htr hi hL hB
    have hnP : n ∉ P := by
      intro hm
      rw [hL] at hl
      exact (List.nodup_append.1 hl).2.2 n hm n (by simp) rfl
    have hnL : n ∈ net.list := by rw [hL]; simp
    have hmem : s.nodes.mem (key n 0) = true ↔ key n 0 ∈ Dict.keys s0.nodes := by
      rw [mem_iff, keys_base hB, mem_kept hw hnL]
      constructor
      · rintro (h | ⟨x, hx, h1, _⟩)
        · exact h
        · rw [List.append_nil] at hx
          exact absurd ((newNodes_root hx).1) (by rw [h1]; exact hnP)
      · exact .inl
    have skip : (n = s0.own ∨ s0.nodes.mem (key n 0) = true) → Inv s0 i net k bad (load s i k new rest) := by
      intro hc
      refine ih s (P ++ [n]) new hown htr hi (by rw [hL]; simp) ⟨hB.nodes, ?_, hB.objs, hB.fresh, hB.told⟩
      rw [newNodes_snoc, if_pos hc, hB.descr]
      simp
    unfold load
    split
    · rename_i hc
      exact skip (.inr ((mem_iff _ _).2 (hmem.1 hc.2)))
    · rename_i hc
      split
      · rename_i ho
        rw [hown] at ho
        exact skip (.inl ho)
      · rename_i ho
        rw [hown] at ho
        refine inv_goto hown htr hi rfl ⟨rfl, P, hL, ⟨ho, ?_⟩, hB⟩
        cases k with
        | startup => rw [h0 rfl]; simp [Dict.keys]
        | update => intro hk; exact hc ⟨rfl, hmem.2 hk⟩

/-- A node is entered into the table. -/
theorem base_add {s : State} {new : List Nd} {P extra ns} (hB : Base s0 i net s new P extra ns) (n ep : Nat) (x : Info) (habs : key n ep ∉ Dict.keys s.nodes) :
    Base s0 i net { s with objs := s.objs + 1, nodes := s.nodes.set (Nd.id ⟨s.objs, n, ep, x⟩) ⟨s.objs, n, ep, x⟩ } (new ++ [⟨s.objs, n, ep, x⟩]) P
      (extra ++ [(n, ep, x)]) ns := by
  refine ⟨?_, ?_, ?_, ?_, hB.told⟩
  · show Dict.set _ _ _ = _
    rw [show Nd.id ⟨s.objs, n, ep, x⟩ = key n ep from rfl, set_absent _ _ _ habs, hB.nodes]
    simp [pair, Nd.id]
  · rw [List.map_append, hB.descr]; simp [descr]
  · simp [hB.objs]; omega
  · rw [List.map_append, hB.fresh]
    simp [List.range'_concat, hB.objs]

theorem length_set {s : State} {j : Nat} {pc : Pc} : (s.goto j pc).calls.length = s.calls.length := by simp [State.goto]

/-- The removal loop. -/
theorem inv_remove (hw : Orderly s0.nodes) (hl : net.list.Nodup) (todo : List Str) :
    ∀ (s : State) (dn : List Str), s.own = s0.own → s0.trace <+: s.trace → i < s.calls.length → gone s0 net = dn ++ todo → s.objs = s0.objs →
      s.nodes = s0.nodes.filter (fun p => p.1 ∉ dn) → told (since s0 s) = dn.map (.removed i) →
      Inv s0 i net .update bad (remove s i (gone s0 net) net.list todo) := by
  cases todo with
  | nil =>
    intro s dn hown htr hi hg hobj hn ht
    rw [List.append_nil] at hg
    have hkept : s.nodes = kept s0 net := by
      rw [hn, ← hg]
      apply List.filter_congr
      intro p hp
      rw [decide_eq_decide]
      simp only [gone, Dict.keys, List.mem_map, List.mem_filter, not_exists, not_and]
      constructor
      · intro h
        rcases Decidable.em (p.2.root ∈ net.list) with h' | h'
        · exact h'
        · exact absurd rfl (h p ⟨hp, by simpa using h'⟩)
      · rintro h q ⟨hq, hqr⟩ he
        have e1 := hw.ids q.1 q.2 hq
        have e2 := hw.ids p.1 p.2 hp
        rw [he, e2] at e1
        simp only [Nd.id] at e1
        have := (key_inj e1).1
        rw [this] at h
        simp [h] at hqr
    unfold remove
    dsimp only
    split
    · rename_i he
      refine inv_load hw hl (by simp) net.list s [] [] hown htr hi rfl ?_
      refine ⟨by simp [hkept], by simp [newNodes], by simp [hobj], by simp, ?_⟩
      rw [ht, ← hg]
      simp [removals, he]
    · rename_i he
      refine inv_goto (s := s.see (.removedAll i (gone s0 net))) (pc := .removedAll net.list) hown (trace_see htr _) hi rfl ⟨rfl, rfl, he, ?_⟩
      refine ⟨?_, by simp [newNodes], ?_, by simp, ?_⟩
      · show s.nodes = _
        simp [hkept]
      · show s.objs = _
        simp [hobj]
      · rw [told_see htr, ht, ← hg]
        simp [removals, he, told]
  | cons q todo =>
    intro s dn hown htr hi hg hobj hn ht
    unfold remove
    dsimp only
    split
    · refine inv_goto (s := State.see { s with nodes := s.nodes.erase q } (.removed i q)) (pc := .removing todo (gone s0 net) net.list) hown
        (trace_see (s := { s with nodes := s.nodes.erase q }) htr _) hi rfl
        ⟨rfl, rfl, rfl, hobj, dn ++ [q], by rw [hg]; simp, by simp, ?_, ?_⟩
      · show s.nodes.erase q = _
        rw [hn, Dict.erase, List.filter_filter]
        apply List.filter_congr
        intro p _
        by_cases h1 : p.1 = q <;> by_cases h2 : p.1 ∈ dn <;> simp [h1, h2]
      · rw [told_see (s := { s with nodes := s.nodes.erase q }) htr]
        show told (since s0 s) ++ _ = _
        rw [ht]
        simp [told]
    · rename_i hm
      refine absurd ((mem_iff _ _).2 ?_) hm
      have hnd : (gone s0 net).Nodup := (List.filter_sublist.map Prod.fst).nodup hw.nodup
      rw [hg] at hnd
      have hqd : q ∉ dn := fun h => (List.nodup_append.1 hnd).2.2 q h q (by simp) rfl
      have hq : q ∈ gone s0 net := by rw [hg]; simp
      simp only [gone, Dict.keys, List.mem_map, List.mem_filter] at hq
      obtain ⟨p, ⟨hp, _⟩, rfl⟩ := hq
      rw [hn]
      exact List.mem_map.2 ⟨p, List.mem_filter.2 ⟨hp, by simpa using hqd⟩, rfl⟩

/-- The announcing loop. -/
theorem inv_announce {s : State} {dn todo : List Nd} {size : Nat} (h0 : k = .startup → s0.nodes = []) (hown : s.own = s0.own) (htr : s0.trace <+: s.trace) (hi : i < s.calls.length)
    (hsz : k = .startup → size = s.nodes.length) (hne : k = .update → dn ++ todo ≠ [])
    (hB : Base s0 i net s (dn ++ todo) net.list [] (.addedAll i (dn ++ todo) :: dn.map (.added i))) : Inv s0 i net k bad (announce s i k size todo) := by
  cases todo with
  | nil =>
    unfold announce
    dsimp only
    split
    · rename_i hc
      exact absurd (hsz hc.1).symm hc.2
    · refine inv_goto (pc := .done (.ok ())) hown htr hi rfl ⟨dn ++ [], ?_⟩
      rw [if_neg (by rintro ⟨h1, h2⟩; exact hne h2 h1)]
      simpa using hB
  | cons nd todo =>
    unfold announce
    dsimp only
    split
    · rename_i hc
      exact absurd (hsz hc.1).symm hc.2
    · refine inv_goto (s := s.see (.added i nd)) (pc := .adding k todo size) hown (trace_see htr _) hi rfl ⟨rfl, hsz, dn ++ [nd], by simp, ?_⟩
      have e : dn ++ [nd] ++ todo = dn ++ nd :: todo := by simp
      rw [e]
      refine ⟨hB.nodes, hB.descr, hB.objs, hB.fresh, ?_⟩
      rw [told_see htr, hB.told]
      simp [told]

theorem reports_info {s : State} (htr : s0.trace <+: s.trace) {n : Nat} {x : Info} (h : Reports net (since s0 (s.see (.gotInfo i n x)))) : x = net.info n := by
  rw [since_snoc htr] at h
  exact h _ (List.mem_append_right _ (List.mem_singleton.2 rfl))

theorem reports_eps {s : State} (htr : s0.trace <+: s.trace) {n c : Nat} (h : Reports net (since s0 (s.see (.gotEps i n c)))) : c = net.eps n := by
  rw [since_snoc htr] at h
  exact h _ (List.mem_append_right _ (List.mem_singleton.2 rfl))

theorem reports_cap {s : State} (htr : s0.trace <+: s.trace) {n e : Nat} {x : Info} (h : Reports net (since s0 (s.see (.gotCap i n e x)))) : x = net.cap n e := by
  rw [since_snoc htr] at h
  exact h _ (List.mem_append_right _ (List.mem_singleton.2 rfl))

theorem reports_list {s : State} (htr : s0.trace <+: s.trace) {l : List Nat} (h : Reports net (since s0 (s.see (.gotList i l)))) : l = net.list := by
  rw [since_snoc htr] at h
  exact h _ (List.mem_append_right _ (List.mem_singleton.2 rfl))

/-- The trace only grows. -/
theorem load_trace (i : Nat) (k : Kind) (rest : List Nat) : ∀ (s : State) (new : List Nd), s.trace <+: (load s i k new rest).trace := by
  induction rest with
  | nil =>
    intro s new
    unfold load
    cases k
    · dsimp only
      split
      · exact List.prefix_refl _
      · exact List.prefix_append _ _
    · exact List.prefix_refl _
  | cons n rest ih =>
    intro s new
    unfold load
    split
    · exact ih s new
    · split
      · exact ih s new
      · exact List.prefix_refl _

theorem remove_trace (i : Nat) (all : List Str) (list : List Nat) (todo : List Str) (s : State) : s.trace <+: (remove s i all list todo).trace := by
  cases todo with
  | nil =>
    unfold remove
    dsimp only
    split
    · exact load_trace _ _ _ _ _
    · exact List.prefix_append _ _
  | cons q todo =>
    unfold remove
    dsimp only
    split
    · exact List.prefix_append _ _
    · exact List.prefix_refl _

theorem announce_trace (i : Nat) (k : Kind) (size : Nat) (todo : List Nd) (s : State) : s.trace <+: (announce s i k size todo).trace := by
  cases todo with
  | nil =>
    unfold announce
    dsimp only
    split <;> exact List.prefix_refl _
  | cons nd todo =>
    unfold announce
    dsimp only
    split
    · exact List.prefix_refl _
    · exact List.prefix_append _ _

theorem reports_mono {s s' : State} (htr : s0.trace <+: s.trace) (h : s.trace <+: s'.trace) (hr : Reports net (since s0 s')) : Reports net (since s0 s) := by
  intro e he
  apply hr e
  obtain ⟨t, ht⟩ := h
  simp only [since] at he ⊢
  rw [← ht, List.drop_append_of_le_length htr.length_le]
  exact List.mem_append_left _ he

theorem reports_load {s s' : State} (htr : s0.trace <+: s.trace) {j : Nat} {k : Kind} {new : List Nd} {rest : List Nat} (hr : Reports net (since s0 (load s' j k new rest)))
    (h : s'.trace = s.trace) : Reports net (since s0 s) := reports_mono htr (by rw [← h]; exact load_trace _ _ _ _ _) hr

theorem inv_goto' {s : State} {pc : Pc} (hat : At s0 i net k bad s pc) (hown : s.own = s0.own) (htr : s0.trace <+: s.trace) (hlt : i < s.calls.length) {pc' : Pc} (e : pc' = pc) 
    : Inv s0 i net k bad (s.goto i pc') := by subst e; exact inv_goto hown htr hlt rfl hat

theorem told_got {s : State} (htr : s0.trace <+: s.trace) {e : Ev} (he : told [e] = []) : told (since s0 (s.see e)) = told (since s0 s) := by
  rw [told_see htr, he, List.append_nil]

theorem base_see {s : State} (htr : s0.trace <+: s.trace) {e : Ev} (he : told [e] = []) {new P extra ns} (hB : Base s0 i net s new P extra ns) :
    Base s0 i net (s.see e) new P extra ns := ⟨hB.nodes, hB.descr, hB.objs, hB.fresh, by rw [told_got htr he]; exact hB.told⟩

/-- What a loaded node and its end points add. -/
theorem base_next {s : State} {new : List Nd} {P : List Nat} {n : Nat} {extra : List (Nat × Nat × Info)} (hu : Unknown s0 n) (he : extra = nodeAndEndPoints net n)
    (hB : Base s0 i net s new P extra []) : Base s0 i net s new (P ++ [n]) [] [] := by
  refine ⟨hB.nodes, ?_, hB.objs, hB.fresh, hB.told⟩
  rw [hB.descr, newNodes_snoc, if_neg, he, List.append_nil]
  rintro (h | h)
  · exact hu.1 h
  · exact hu.2 ((mem_iff _ _).1 h)

/-- No entry for a node that is being loaded, except those just made. -/
theorem absent {s : State} (hw : Orderly s0.nodes) (hl : net.list.Nodup) {new : List Nd} {P rest : List Nat} {n ep : Nat} {extra ns} (hL : net.list = P ++ n :: rest)
    (hu : Unknown s0 n) (hB : Base s0 i net s new P extra ns) (hx : ∀ x ∈ extra, ¬ (x.1 = n ∧ x.2.1 = ep)) : key n ep ∉ Dict.keys s.nodes := by
  rw [keys_base hB]
  rintro (h | ⟨x, hm, h1, h2⟩)
  · rw [mem_kept hw (by rw [hL]; simp)] at h
    simp only [Dict.keys, List.mem_map, Prod.exists, exists_and_right, exists_eq_right] at h
    obtain ⟨nd, hnd⟩ := h
    have := (key_inj (hw.ids _ _ hnd)).1
    have := hw.roots _ _ hnd
    rw [← (key_inj (hw.ids _ _ hnd)).1] at this
    exact hu.2 this
  · rcases List.mem_append.1 hm with h | h
    · have := (newNodes_root h).1
      rw [h1] at this
      rw [hL] at hl
      exact (List.nodup_append.1 hl).2.2 n this n (by simp) rfl
    · exact hx x h ⟨h1, h2⟩

theorem inv_answer (hw : Orderly s0.nodes) (hl : net.list.Nodup) (h0 : k = .startup → s0.nodes = []) {s : State} (hI : Inv s0 i net k bad s) (a : Ans)
    (hbad : a.raises = true → bad) (hraw : (∀ n, Accepted (net.info n)) ∧ (∀ n e, Accepted (net.cap n e)) ∨ bad) (hr : Reports net (since s0 (answer s i a))) : Inv s0 i net k bad (answer s i a) := by
  obtain ⟨hown, htr, pc, hi, hat⟩ := hI
  have dflt : Inv s0 i net k bad s := ⟨hown, htr, pc, hi, hat⟩
  have hlt := getElem?_lt hi
  have fail : ∀ e, bad → Inv s0 i net k bad (s.goto i (.done (.error e))) := fun e h => inv_goto (pc := .done (.error e)) hown htr hlt rfl h
  unfold answer at hr ⊢
  rw [hi] at hr ⊢
  cases pc with
  | list k' =>
    obtain ⟨rfl, hn, ho, ht⟩ := hat
    cases a with
    | list r =>
      cases r with
      | error e => cases k' <;> exact fail e (hbad rfl)
      | ok l =>
        cases k' with
        | update =>
          dsimp only at hr ⊢
          have hL := reports_list htr (reports_mono (s := s.see (.gotList i l)) (trace_see htr _) (remove_trace _ _ _ _ _) hr)
          subst hL
          have e : Dict.keys (s.nodes.filter fun p => p.2.root ∉ net.list) = gone s0 net := by rw [hn]; rfl
          rw [e]
          refine inv_remove hw hl (gone s0 net) (s.see _) [] hown (trace_see htr _) hlt rfl ho ?_ (by rw [told_got htr rfl]; exact ht)
          show s.nodes = _
          rw [hn]
          symm
          rw [List.filter_eq_self]
          simp
        | startup =>
          dsimp only at hr ⊢
          have hL := reports_list htr (reports_mono (s := s.see (.gotList i l)) (trace_see htr _) (load_trace _ _ _ _ _) hr)
          subst hL
          have e0 := h0 rfl
          refine inv_load hw hl h0 net.list (s.see _) [] [] hown (trace_see htr _) hlt rfl ?_
          refine ⟨?_, by simp [newNodes], ?_, by simp, ?_⟩
          · show s.nodes = _
            rw [hn, e0]; simp [kept, e0]
          · show s.objs = _
            simp [ho]
          · rw [told_got htr rfl, ht]; simp [removals, gone, e0, Dict.keys]
    | _ => cases k' <;> exact dflt
  | removing todo all l =>
    obtain ⟨rfl, rfl, rfl, ho, dn, h1, h2, h3, h4⟩ := hat
    cases a with
    | asked r =>
      cases r with
      | error e => exact fail e (hbad rfl)
      | ok u => exact inv_remove hw hl todo s dn hown htr hlt h1 ho h3 h4
    | _ => exact dflt
  | removedAll l =>
    obtain ⟨rfl, rfl, h1, hB⟩ := hat
    cases a with
    | asked r =>
      cases r with
      | error e => exact fail e (hbad rfl)
      | ok u => exact inv_load hw hl h0 net.list s [] [] hown htr hlt rfl hB
    | _ => exact dflt
  | info k' n rest new =>
    obtain ⟨rfl, P, hL, hu, hB⟩ := hat
    cases a with
    | info r =>
      cases r with
      | error e => exact fail e (hbad rfl)
      | ok x =>
        dsimp only at hr ⊢
        have hx : x = net.info n := by
          apply reports_info (i := i) htr
          revert hr
          split
          · exact fun hr => hr
          · split
            · exact fun hr => hr
            · exact fun hr => reports_load (trace_see htr _) hr rfl
        subst hx
        clear hr
        have hB' := base_see htr (e := .gotInfo i n (net.info n)) rfl hB
        have habs := absent hw hl hL hu hB' (ep := 0) (by simp)
        have hB2 := base_add hB' n 0 (net.info n) habs
        split
        · rename_i he
          refine inv_goto (s := s.see _) (pc := .done (.error _)) hown (trace_see htr _) hlt rfl ?_
          rcases hraw with h | h
          · have := h.1 n; simp [Accepted, he] at this
          · exact h
        · split
          · rename_i hm
            exact inv_goto' (pc := .eps k' ⟨_, n, 0, net.info n⟩ rest _) ⟨rfl, rfl, hm, P, hL, hu, hB2⟩ hown (trace_see htr _) hlt rfl
          · rename_i hm
            refine inv_load hw hl h0 rest _ (P ++ [n]) _ hown (trace_see htr _) hlt (by rw [hL]; simp) (base_next hu ?_ hB2)
            simp [nodeAndEndPoints, hm]
    | _ => exact dflt
  | eps k' nd rest new =>
    obtain ⟨rfl, he, hm, P, hL, hu, hB⟩ := hat
    cases a with
    | eps r =>
      cases r with
      | error e => exact fail e (hbad rfl)
      | ok c =>
        dsimp only at hr ⊢
        have hx : c = net.eps nd.root := by
          apply reports_eps (i := i) htr
          revert hr
          cases c with
          | zero => exact fun hr => reports_mono (trace_see htr _) (load_trace i k' rest _ _) hr
          | succ c => exact fun hr => hr
        clear hr
        have hB' := base_see htr (e := .gotEps i nd.root c) rfl hB
        cases c with
        | zero =>
          refine inv_load hw hl h0 rest _ (P ++ [nd.root]) _ hown (trace_see htr _) hlt (by rw [hL]; simp) (base_next hu ?_ hB')
          simp [nodeAndEndPoints, hm, ← hx]
        | succ c =>
          exact inv_goto (s := s.see _) (pc := .cap _ _ _ _ _ _) hown (trace_see htr _) hlt rfl
            ⟨rfl, hm, Nat.le_refl 1, by omega, P, hL, hu, by simpa using hB'⟩
    | _ => exact dflt
  | cap k' nd ep c rest new =>
    obtain ⟨rfl, hm, hep, hc, P, hL, hu, hB⟩ := hat
    cases a with
    | cap r =>
      cases r with
      | error e => exact fail e (hbad rfl)
      | ok x =>
        dsimp only at hr ⊢
        have hx : x = net.cap nd.root ep := by
          apply reports_cap (i := i) htr
          revert hr
          split
          · exact fun hr => hr
          · cases c with
            | zero => exact fun hr => reports_load (trace_see htr _) hr rfl
            | succ c => exact fun hr => hr
        subst hx
        clear hr
        have hB' := base_see htr (e := .gotCap i nd.root ep (net.cap nd.root ep)) rfl hB
        have habs := absent hw hl hL hu hB' (ep := ep) (by
          intro x hx
          rcases List.mem_cons.1 hx with rfl | hx
          · rintro ⟨_, h⟩; dsimp only at h; omega
          · obtain ⟨e, he, rfl⟩ := List.mem_map.1 hx
            rintro ⟨_, h⟩
            dsimp only at h
            have := List.mem_range.1 he
            omega)
        have hB2 := base_add hB' nd.root ep (net.cap nd.root ep) habs
        have hext : ((nd.root, 0, net.info nd.root) :: (List.range (ep - 1)).map fun e => (nd.root, e + 1, net.cap nd.root (e + 1))) ++ [(nd.root, ep, net.cap nd.root ep)] =
            (nd.root, 0, net.info nd.root) :: (List.range ep).map fun e => (nd.root, e + 1, net.cap nd.root (e + 1)) := by
          obtain ⟨q, rfl⟩ : ∃ q, ep = q + 1 := ⟨ep - 1, by omega⟩
          simp [List.range_succ]
        rw [hext] at hB2
        split
        · rename_i he
          refine inv_goto (s := s.see _) (pc := .done (.error _)) hown (trace_see htr _) hlt rfl ?_
          rcases hraw with h | h
          · have := h.2 nd.root ep; simp [Accepted, he] at this
          · exact h
        · cases c with
          | zero =>
            refine inv_load hw hl h0 rest _ (P ++ [nd.root]) _ hown (trace_see htr _) hlt (by rw [hL]; simp) (base_next hu ?_ hB2)
            simp [nodeAndEndPoints, hm, ← hc]
          | succ c =>
            exact inv_goto' (pc := .cap k' nd (ep + 1) c rest _) ⟨rfl, hm, by omega, by omega, P, hL, hu, hB2⟩ hown (trace_see htr _) hlt rfl
    | _ => exact dflt
  | failed =>
    obtain ⟨rfl, new, hB⟩ := hat
    cases a with
    | failed r =>
      cases r with
      | error e => exact fail e (hbad rfl)
      | ok u =>
        have hns : s.nodes.map Prod.snd = new := by
          rw [hB.nodes]
          simp only [kept, h0 rfl, List.filter_nil, List.nil_append, List.map_map]
          exact List.map_id _
        dsimp only
        rw [hns]
        refine inv_goto (s := s.see (.addedAll i new)) (pc := .addedAll .startup []) hown (trace_see htr _) hlt rfl ⟨rfl, by simp, fun _ => ⟨new, ?_⟩⟩
        refine ⟨hB.nodes, hB.descr, hB.objs, hB.fresh, ?_⟩
        rw [told_see htr, hB.told]
        simp [told]
    | _ => exact dflt
  | addedAll k' new =>
    obtain ⟨rfl, h1, h2⟩ := hat
    cases a with
    | asked r =>
      cases r with
      | error e => cases k' <;> exact fail e (hbad rfl)
      | ok u =>
        cases k' with
        | update =>
          obtain ⟨hne, hB⟩ := h1 rfl
          exact inv_announce (dn := []) h0 hown htr hlt (by simp) (fun _ => hne) hB
        | startup =>
          obtain ⟨new', hB⟩ := h2 rfl
          have hns : s.nodes.map Prod.snd = new' := by
            rw [hB.nodes]
            simp only [kept, h0 rfl, List.filter_nil, List.nil_append, List.map_map]
            exact List.map_id _
          dsimp only
          rw [hns]
          exact inv_announce (dn := []) h0 hown htr hlt (fun _ => rfl) (by simp) hB
    | _ => cases k' <;> exact dflt
  | adding k' todo size =>
    obtain ⟨rfl, hsz, dn, hne, hB⟩ := hat
    cases a with
    | asked r =>
      cases r with
      | error e => exact fail e (hbad rfl)
      | ok u => exact inv_announce h0 hown htr hlt hsz hne hB
    | _ => exact dflt
  | done r => cases a <;> exact dflt

theorem load_trace' {s s' : State} {i : Nat} {k : Kind} {rest : List Nat} {new : List Nd} (h : s'.trace = s.trace) : s.trace <+: (load s' i k new rest).trace := by
  rw [← h]; exact load_trace _ _ _ _ _

theorem answer_trace (s : State) (i : Nat) (a : Ans) : s.trace <+: (answer s i a).trace := by
  have g : ∀ e, s.trace <+: (s.see e).trace := fun e => List.prefix_append _ _
  unfold answer
  split
  case h_2 => exact (g _).trans (remove_trace _ _ _ _ _)
  case h_3 => exact (g _).trans (load_trace _ _ _ _ _)
  case h_5 => exact remove_trace _ _ _ _ _
  case h_7 => exact load_trace _ _ _ _ _
  case h_9 =>
    dsimp only
    split
    · exact List.prefix_append _ _
    · split
      · exact List.prefix_append _ _
      · exact (g _).trans (load_trace' rfl)
  case h_11 =>
    dsimp only
    split
    · exact (g _).trans (load_trace _ _ _ _ _)
    · exact List.prefix_append _ _
  case h_13 =>
    dsimp only
    split
    · exact List.prefix_append _ _
    · split
      · exact (g _).trans (load_trace' rfl)
      · exact List.prefix_append _ _
  case h_15 => exact List.prefix_append _ _
  case h_17 => exact announce_trace _ _ _ _ _
  case h_18 => exact announce_trace _ _ _ _ _
  case h_20 => exact announce_trace _ _ _ _ _
  all_goals exact List.prefix_refl _

theorem run_snoc (s : State) (ops : List Op) (o : Op) : run s (ops ++ [o]) = step (run s ops) o := by simp [run]

theorem run_cons (s : State) (o : Op) (ops : List Op) : run s (o :: ops) = run (step s o) ops := rfl

/-- A call that is not disturbed. -/
theorem inv_run (hw : Orderly s0.nodes) (hl : net.list.Nodup) (h0 : k = .startup → s0.nodes = []) (answers : List Ans)
    (hbad : ∀ a ∈ answers, a.raises = true → bad) (hraw : (∀ n, Accepted (net.info n)) ∧ (∀ n e, Accepted (net.cap n e)) ∨ bad)
    (hr : Reports net (since s0 (run s0 (.start k :: answers.map (.answer s0.calls.length))))) :
    Inv s0 s0.calls.length net k bad (run s0 (.start k :: answers.map (.answer s0.calls.length))) := by
  induction answers using Model.Conn.snoc_ind with
  | nil =>
    refine ⟨rfl, List.prefix_refl _, .list k, by simp [run, step], rfl, rfl, rfl, ?_⟩
    simp [run, step, since, told]
  | snoc answers a ih =>
    rw [List.map_append, ← List.cons_append, List.map_singleton, run_snoc] at hr ⊢
    have htr : s0.trace <+: (run s0 (.start k :: answers.map (.answer s0.calls.length))).trace := by
      clear ih hr hbad
      induction answers using Model.Conn.snoc_ind with
      | nil => exact List.prefix_refl _
      | snoc answers a ih =>
        rw [List.map_append, ← List.cons_append, List.map_singleton, run_snoc]
        exact ih.trans (answer_trace _ _ _)
    have ih := ih (fun x hx => hbad x (List.mem_append_left _ hx)) (reports_mono htr (answer_trace _ _ a) hr)
    exact inv_answer hw hl h0 ih a (hbad a (by simp)) hraw hr

/-! ## Calls that overlap -/

/-- What a waiting call knows. -/
def OkPc (s : State) : Pc → Prop
  | .info _ n _ new => n ≠ s.own ∧ ∀ nd ∈ new, Reported s nd
  | .eps _ nd _ new => nd.root ≠ s.own ∧ ∀ nd ∈ new, Reported s nd
  | .cap _ nd ep _ _ new => nd.root ≠ s.own ∧ 1 ≤ ep ∧ ∀ nd ∈ new, Reported s nd
  | .addedAll _ new => ∀ nd ∈ new, Reported s nd
  | .adding _ todo _ => ∀ nd ∈ todo, Reported s nd
  | _ => True

def OkEv (s : State) : Ev → Prop
  | .addedAll _ nds => ∀ nd ∈ nds, Reported s nd
  | .added _ nd => Reported s nd
  | _ => True

/-- The invariant of all interleavings. -/
structure W (s : State) : Prop where
  nodup : (Dict.keys s.nodes).Nodup
  ids : ∀ k nd, (k, nd) ∈ s.nodes → k = nd.id
  table : ∀ k nd, (k, nd) ∈ s.nodes → Reported s nd
  pcs : ∀ pc ∈ s.calls, OkPc s pc
  evs : ∀ e ∈ s.trace, OkEv s e

theorem reported_mono {s s' : State} (ho : s'.own = s.own) (ht : s.trace <+: s'.trace) {nd : Nd} (h : Reported s nd) : Reported s' nd := by
  obtain ⟨h1, h2⟩ := h
  refine ⟨by rw [ho]; exact h1, ?_⟩
  split
  · rename_i he
    rw [if_pos he] at h2
    obtain ⟨j, h⟩ := h2
    exact ⟨j, ht.subset h⟩
  · rename_i he
    rw [if_neg he] at h2
    obtain ⟨j, h⟩ := h2
    exact ⟨j, ht.subset h⟩

theorem okPc_mono {s s' : State} (ho : s'.own = s.own) (ht : s.trace <+: s'.trace) {pc : Pc} (h : OkPc s pc) : OkPc s' pc := by
  have m := fun nd => reported_mono (nd := nd) ho ht
  cases pc with
  | info k n rest new => exact ⟨by rw [ho]; exact h.1, fun nd hn => m _ (h.2 nd hn)⟩
  | eps k n rest new => exact ⟨by rw [ho]; exact h.1, fun nd hn => m _ (h.2 nd hn)⟩
  | cap k n ep c rest new => exact ⟨by rw [ho]; exact h.1, h.2.1, fun nd hn => m _ (h.2.2 nd hn)⟩
  | addedAll k new => exact fun nd hn => m _ (h nd hn)
  | adding k todo size => exact fun nd hn => m _ (h nd hn)
  | _ => trivial

theorem okEv_mono {s s' : State} (ho : s'.own = s.own) (ht : s.trace <+: s'.trace) {e : Ev} (h : OkEv s e) : OkEv s' e := by
  have m := fun nd => reported_mono (nd := nd) ho ht
  cases e with
  | addedAll i nds => exact fun nd hn => m _ (h nd hn)
  | added i nd => exact m _ h
  | _ => trivial

theorem w_goto {s : State} (h : W s) (i : Nat) {pc : Pc} (hp : OkPc s pc) : W (s.goto i pc) := by
  refine ⟨h.nodup, h.ids, h.table, ?_, ?_⟩
  · intro q hq
    rcases List.mem_or_eq_of_mem_set hq with hq | rfl
    · exact okPc_mono (s := s) rfl (List.prefix_refl _) (h.pcs q hq)
    · exact okPc_mono (s := s) rfl (List.prefix_refl _) hp
  · intro e he
    exact okEv_mono (s := s) rfl (List.prefix_refl _) (h.evs e he)

theorem w_see {s : State} (h : W s) {e : Ev} (he : OkEv s e) : W (s.see e) := by
  have hp : s.trace <+: (s.see e).trace := List.prefix_append _ _
  refine ⟨h.nodup, h.ids, fun k nd hk => reported_mono (s := s) (s' := s.see e) rfl hp (h.table k nd hk), fun pc hpc => okPc_mono (s := s) (s' := s.see e) rfl hp (h.pcs pc hpc), ?_⟩
  intro x hx
  rcases List.mem_append.1 hx with hx | hx
  · exact okEv_mono (s := s) (s' := s.see e) rfl hp (h.evs x hx)
  · rw [List.mem_singleton.1 hx]; exact okEv_mono (s := s) (s' := s.see e) rfl hp he

theorem w_load (i : Nat) (k : Kind) (rest : List Nat) : ∀ (s : State) (new : List Nd), W s → (∀ nd ∈ new, Reported s nd) → W (load s i k new rest) := by
  induction rest with
  | nil =>
    intro s new h hn
    unfold load
    cases k with
    | startup => exact w_goto h i trivial
    | update =>
      dsimp only
      split
      · exact w_goto h i trivial
      · exact w_goto (w_see h (e := .addedAll i new) hn) i (pc := .addedAll .update new) (fun nd hd => reported_mono (s := s) (s' := s.see _) rfl (List.prefix_append _ _) (hn nd hd))
  | cons n rest ih =>
    intro s new h hn
    unfold load
    split
    · exact ih s new h hn
    · split
      · exact ih s new h hn
      · rename_i ho
        exact w_goto h i ⟨ho, hn⟩

theorem w_erase {s : State} (h : W s) (q : Str) : W { s with nodes := s.nodes.erase q } :=
  ⟨(List.filter_sublist.map Prod.fst).nodup h.nodup, fun k nd hk => h.ids k nd (List.mem_filter.1 hk |>.1), fun k nd hk => h.table k nd (List.mem_filter.1 hk |>.1), h.pcs, h.evs⟩

theorem w_remove (i : Nat) (all : List Str) (l : List Nat) (todo : List Str) {s : State} (h : W s) : W (remove s i all l todo) := by
  cases todo with
  | nil =>
    unfold remove
    dsimp only
    split
    · exact w_load i .update l s [] h (by simp)
    · exact w_goto (w_see h (e := .removedAll i all) trivial) i (pc := .removedAll l) trivial
  | cons q todo =>
    unfold remove
    dsimp only
    split
    · exact w_goto (w_see (w_erase h q) (e := .removed i q) trivial) i (pc := .removing todo all l) trivial
    · exact w_goto h i trivial

theorem w_announce (i : Nat) (k : Kind) (size : Nat) (todo : List Nd) {s : State} (h : W s) (ht : ∀ nd ∈ todo, Reported s nd) : W (announce s i k size todo) := by
  cases todo with
  | nil =>
    unfold announce
    dsimp only
    split <;> exact w_goto h i trivial
  | cons nd todo =>
    unfold announce
    dsimp only
    split
    · exact w_goto h i trivial
    · exact w_goto (w_see h (e := .added i nd) (ht nd (by simp))) i (pc := .adding k todo size) (fun x hx => reported_mono (s := s) (s' := s.see _) rfl (List.prefix_append _ _) (ht x (by simp [hx])))

theorem mem_set {κ α : Type} [DecidableEq κ] {d : Dict κ α} {k k' : κ} {v v' : α} (h : (k', v') ∈ Dict.set d k v) : (k', v') ∈ d ∨ k' = k ∧ v' = v := by
  induction d with
  | nil => simp only [Dict.set, List.mem_singleton, Prod.mk.injEq] at h; exact .inr h
  | cons p d ih =>
    obtain ⟨a, b⟩ := p
    simp only [Dict.set] at h
    split at h
    · rename_i he
      rcases List.mem_cons.1 h with h | h
      · simp only [Prod.mk.injEq] at h; exact .inr ⟨h.1.trans he, h.2⟩
      · exact .inl (List.mem_cons_of_mem _ h)
    · rcases List.mem_cons.1 h with h | h
      · rw [h]; exact .inl (List.mem_cons_self ..)
      · rcases ih h with h | h
        · exact .inl (List.mem_cons_of_mem _ h)
        · exact .inr h

theorem w_enter {s : State} (h : W s) {nd : Nd} (hn : Reported s nd) : W { s with objs := s.objs + 1, nodes := s.nodes.set nd.id nd } := by
  refine ⟨Dict.nodup_set h.nodup, ?_, ?_, h.pcs, h.evs⟩
  · intro k x hk
    rcases mem_set hk with hk | ⟨rfl, rfl⟩
    · exact h.ids k x hk
    · rfl
  · intro k x hk
    rcases mem_set hk with hk | ⟨rfl, rfl⟩
    · exact h.table k x hk
    · exact hn

theorem w_answer {s : State} (h : W s) (i : Nat) (a : Ans) : W (answer s i a) := by
  have fail : ∀ e, W (s.goto i (.done (.error e))) := fun e => w_goto h i trivial
  have snoc : ∀ {s : State} {new : List Nd} {x : Nd}, (∀ nd ∈ new, Reported s nd) → Reported s x → ∀ nd ∈ new ++ [x], Reported s nd := by
    intro s new x h1 h2 nd hn
    rcases List.mem_append.1 hn with hn | hn
    · exact h1 nd hn
    · rw [List.mem_singleton.1 hn]; exact h2
  unfold answer
  cases hi : s.calls[i]? with
  | none => exact h
  | some pc =>
    have hp := h.pcs pc (List.mem_of_getElem? hi)
    cases pc with
    | list k =>
      cases a with
      | list r =>
        cases r with
        | error e => cases k <;> exact fail e
        | ok l =>
          cases k with
          | update => exact w_remove _ _ _ _ (w_see h (e := .gotList i l) trivial)
          | startup => exact w_load _ _ _ _ _ (w_see h (e := .gotList i l) trivial) (by simp)
      | _ => cases k <;> exact h
    | removing todo all l =>
      cases a with
      | asked r =>
        cases r with
        | error e => exact fail e
        | ok u => exact w_remove _ _ _ _ h
      | _ => exact h
    | removedAll l =>
      cases a with
      | asked r =>
        cases r with
        | error e => exact fail e
        | ok u => exact w_load _ _ _ _ _ h (by simp)
      | _ => exact h
    | info k n rest new =>
      cases a with
      | info r =>
        cases r with
        | error e => exact fail e
        | ok x =>
          dsimp only
          have h' := w_see h (e := .gotInfo i n x) trivial
          have hnew : ∀ nd ∈ new, Reported (s.see (.gotInfo i n x)) nd := fun nd hn => reported_mono (s := s) (s' := s.see _) rfl (List.prefix_append _ _) (hp.2 nd hn)
          have hnd : Reported (s.see (.gotInfo i n x)) ⟨s.objs, n, 0, x⟩ := ⟨hp.1, i, by simp [State.see]⟩
          split
          · exact w_goto h' i trivial
          · have h2 := w_enter h' hnd
            split
            · exact w_goto h2 i (pc := .eps _ _ _ _) ⟨hp.1, snoc hnew hnd⟩
            · exact w_load _ _ _ _ _ h2 (snoc hnew hnd)
      | _ => exact h
    | eps k nd rest new =>
      cases a with
      | eps r =>
        cases r with
        | error e => exact fail e
        | ok c =>
          dsimp only
          have h' := w_see h (e := .gotEps i nd.root c) trivial
          have hnew : ∀ x ∈ new, Reported (s.see (.gotEps i nd.root c)) x := fun x hn => reported_mono (s := s) (s' := s.see _) rfl (List.prefix_append _ _) (hp.2 x hn)
          cases c with
          | zero => exact w_load _ _ _ _ _ h' hnew
          | succ c => exact w_goto h' i (pc := .cap _ _ _ _ _ _) ⟨hp.1, Nat.le_refl 1, hnew⟩
      | _ => exact h
    | cap k nd ep c rest new =>
      cases a with
      | cap r =>
        cases r with
        | error e => exact fail e
        | ok x =>
          dsimp only
          have h' := w_see h (e := .gotCap i nd.root ep x) trivial
          have hnew : ∀ y ∈ new, Reported (s.see (.gotCap i nd.root ep x)) y := fun y hn => reported_mono (s := s) (s' := s.see _) rfl (List.prefix_append _ _) (hp.2.2 y hn)
          have hnd : Reported (s.see (.gotCap i nd.root ep x)) ⟨s.objs, nd.root, ep, x⟩ := by
            refine ⟨hp.1, ?_⟩
            rw [if_neg (show ¬ ep = 0 from fun h => by have := hp.2.1; omega)]
            exact ⟨i, by simp [State.see]⟩
          split
          · exact w_goto h' i trivial
          · have h2 := w_enter h' hnd
            cases c with
            | zero => exact w_load _ _ _ _ _ h2 (snoc hnew hnd)
            | succ c => exact w_goto h2 i (pc := .cap _ _ _ _ _ _) ⟨hp.1, by omega, snoc hnew hnd⟩
      | _ => exact h
    | failed =>
      cases a with
      | failed r =>
        cases r with
        | error e => exact fail e
        | ok u =>
          refine w_goto (w_see h (e := .addedAll i _) ?_) i (pc := .addedAll .startup []) (by simp [OkPc])
          intro nd hn
          obtain ⟨⟨a, b⟩, hq, rfl⟩ := List.mem_map.1 hn
          exact h.table a b hq
      | _ => exact h
    | addedAll k new =>
      cases a with
      | asked r =>
        cases r with
        | error e => cases k <;> exact fail e
        | ok u =>
          cases k with
          | update => exact w_announce _ _ _ _ h hp
          | startup =>
            refine w_announce _ _ _ _ h ?_
            intro nd hn
            obtain ⟨⟨a, b⟩, hq, rfl⟩ := List.mem_map.1 hn
            exact h.table a b hq
      | _ => cases k <;> exact h
    | adding k todo size =>
      cases a with
      | asked r =>
        cases r with
        | error e => exact fail e
        | ok u => exact w_announce _ _ _ _ h hp
      | _ => exact h
    | done r => cases a <;> exact h

theorem w_step {s : State} (h : W s) (o : Op) : W (step s o) := by
  cases o with
  | start k =>
    refine ⟨h.nodup, h.ids, h.table, ?_, h.evs⟩
    intro pc hpc
    rcases List.mem_append.1 hpc with hpc | hpc
    · exact okPc_mono (s := s) rfl (List.prefix_refl _) (h.pcs pc hpc)
    · rw [List.mem_singleton.1 hpc]; trivial
  | answer i a => exact w_answer h i a

theorem w_run (own : Nat) (ops : List Op) : W (run (fresh own) ops) := by
  induction ops using Model.Conn.snoc_ind with
  | nil => exact ⟨by simp [run, fresh, Dict.keys], by simp [run, fresh], by simp [run, fresh], by simp [run, fresh], by simp [run, fresh]⟩
  | snoc ops o ih => rw [run_snoc]; exact w_step ih o

/-! ## After a call -/

theorem endPoint_nodup (n : Nat) : ((nodeAndEndPoints net n).map fun x => (x.1, x.2.1)).Nodup := by
  simp only [nodeAndEndPoints, List.map_cons, List.nodup_cons]
  split
  · rw [List.map_map]
    constructor
    · simp
    · refine List.Pairwise.map _ ?_ (List.nodup_range (n := net.eps n))
      intro a b h he
      simp only [Function.comp_apply, Prod.mk.injEq, true_and] at he
      omega
  · simp

theorem nodeAndEndPoints_root {n : Nat} {x : Nat × Nat × Info} (h : x ∈ nodeAndEndPoints net n) : x.1 = n := by
  simp only [nodeAndEndPoints, List.mem_cons] at h
  rcases h with rfl | h
  · rfl
  · split at h
    · obtain ⟨e, _, rfl⟩ := List.mem_map.1 h; rfl
    · simp at h

theorem mem_nodeAndEndPoints {n e : Nat} : (∃ x ∈ nodeAndEndPoints net n, x.2.1 = e) ↔ e = 0 ∨ multiChannel (net.info n) = true ∧ e ≤ net.eps n := by
  simp only [nodeAndEndPoints, List.mem_cons]
  constructor
  · rintro ⟨x, rfl | h, rfl⟩
    · exact .inl rfl
    · split at h
      · rename_i hm
        obtain ⟨q, hq, rfl⟩ := List.mem_map.1 h
        exact .inr ⟨hm, List.mem_range.1 hq⟩
      · simp at h
  · rintro (rfl | ⟨hm, he⟩)
    · exact ⟨_, .inl rfl, rfl⟩
    · cases e with
      | zero => exact ⟨_, .inl rfl, rfl⟩
      | succ e =>
        refine ⟨(n, e + 1, net.cap n (e + 1)), .inr ?_, rfl⟩
        rw [if_pos hm]
        exact List.mem_map.2 ⟨e, List.mem_range.2 he, rfl⟩

theorem newNodes_nodup (own : Nat) (known : Nat → Bool) (l : List Nat) (hl : l.Nodup) : ((newNodes own net known l).map fun x => (x.1, x.2.1)).Nodup := by
  induction l with
  | nil => simp [newNodes]
  | cons n l ih =>
    have e : newNodes own net known (n :: l) = (if n = own ∨ known n then [] else nodeAndEndPoints net n) ++ newNodes own net known l := by simp [newNodes]
    rw [e, List.map_append, List.nodup_append]
    rw [List.nodup_cons] at hl
    refine ⟨?_, ih hl.2, ?_⟩
    · split
      · simp
      · exact endPoint_nodup n
    · intro a ha b hb hab
      subst hab
      obtain ⟨x, hx, rfl⟩ := List.mem_map.1 ha
      obtain ⟨y, hy, he⟩ := List.mem_map.1 hb
      have h1 : x.1 = n := by
        split at hx
        · simp at hx
        · exact nodeAndEndPoints_root hx
      have h2 := (newNodes_root hy).1
      simp only [Prod.mk.injEq] at he
      rw [he.1, h1] at h2
      exact hl.1 h2

theorem mem_newNodes {own : Nat} {known : Nat → Bool} {l : List Nat} {n e : Nat} : (∃ x ∈ newNodes own net known l, x.1 = n ∧ x.2.1 = e) ↔
    n ∈ l ∧ n ≠ own ∧ known n = false ∧ (e = 0 ∨ multiChannel (net.info n) = true ∧ e ≤ net.eps n) := by
  constructor
  · rintro ⟨x, hx, rfl, rfl⟩
    obtain ⟨h1, h2, h3⟩ := newNodes_root hx
    refine ⟨h1, h2, h3, mem_nodeAndEndPoints.1 ⟨x, ?_, rfl⟩⟩
    simp only [newNodes, List.mem_flatMap] at hx
    obtain ⟨m, _, hx⟩ := hx
    split at hx
    · simp at hx
    · rw [nodeAndEndPoints_root hx]; exact hx
  · rintro ⟨h1, h2, h3, h4⟩
    obtain ⟨x, hx, he⟩ := mem_nodeAndEndPoints.2 h4
    refine ⟨x, ?_, nodeAndEndPoints_root hx, he⟩
    simp only [newNodes, List.mem_flatMap]
    refine ⟨n, h1, ?_⟩
    rw [if_neg (by simp [h2, h3])]
    exact hx

section
variable {s : State} {new : List Nd} {ns : List Ev}

theorem new_unknown (hw : Orderly s0.nodes) (hB : Base s0 i net s new net.list [] ns) {nd : Nd} (h : nd ∈ new) : nd.id ∉ Dict.keys s0.nodes := by
  have hm : descr nd ∈ newNodes s0.own net (fun n => s0.nodes.mem (key n 0)) net.list := by
    have := hB.descr
    rw [List.append_nil] at this
    rw [← this]
    exact List.mem_map.2 ⟨nd, h, rfl⟩
  obtain ⟨_, _, h3⟩ := newNodes_root hm
  intro hk
  obtain ⟨⟨a, b⟩, hab, he⟩ := List.mem_map.1 hk
  have h4 := hw.roots a b hab
  have h5 := hw.ids a b hab
  dsimp only at he
  rw [he] at h5
  have := (key_inj h5).1
  rw [← this, ← mem_iff] at h4
  simp only [descr] at h3
  rw [h4] at h3
  cases h3

theorem new_nodup (hl : net.list.Nodup) (hB : Base s0 i net s new net.list [] ns) : (new.map Nd.id).Nodup := by
  have h := newNodes_nodup (net := net) s0.own (fun n => s0.nodes.mem (key n 0)) net.list hl
  have e := hB.descr
  rw [List.append_nil] at e
  rw [← e, List.map_map] at h
  rw [List.nodup_iff_pairwise_ne, List.pairwise_map] at h ⊢
  refine h.imp ?_
  intro a b hne he
  have := key_inj he
  exact hne (by simp [descr, this.1, this.2])

theorem kept_keys {q : Str} (h : q ∈ Dict.keys (kept s0 net)) : q ∈ Dict.keys s0.nodes := (List.filter_sublist.map Prod.fst).subset h

theorem orderly_done (hw : Orderly s0.nodes) (hl : net.list.Nodup) (hB : Base s0 i net s new net.list [] ns) : Orderly s.nodes := by
  have hk : Dict.keys s.nodes = Dict.keys (kept s0 net) ++ new.map Nd.id := by
    rw [hB.nodes]
    simp only [Dict.keys, List.map_append, List.map_map]
    rfl
  have hnew : ∀ {nd}, nd ∈ new → ∃ x ∈ newNodes s0.own net (fun n => s0.nodes.mem (key n 0)) net.list, x.1 = nd.root := by
    intro nd h
    refine ⟨descr nd, ?_, rfl⟩
    have := hB.descr
    rw [List.append_nil] at this
    rw [← this]
    exact List.mem_map.2 ⟨nd, h, rfl⟩
  refine ⟨?_, ?_, ?_⟩
  · rw [hk, List.nodup_append]
    refine ⟨(List.filter_sublist.map Prod.fst).nodup hw.nodup, new_nodup hl hB, ?_⟩
    intro a ha b hb hab
    subst hab
    obtain ⟨nd, hnd, rfl⟩ := List.mem_map.1 hb
    exact new_unknown hw hB hnd (kept_keys ha)
  · intro q nd hq
    rw [hB.nodes] at hq
    rcases List.mem_append.1 hq with hq | hq
    · exact hw.ids q nd (List.mem_filter.1 hq).1
    · obtain ⟨x, _, he⟩ := List.mem_map.1 hq
      simp only [pair, Prod.mk.injEq] at he
      rw [← he.1, ← he.2]
  · intro q nd hq
    rw [hB.nodes] at hq
    rcases List.mem_append.1 hq with hq | hq
    · obtain ⟨h1, h2⟩ := List.mem_filter.1 hq
      rw [keys_base hB, mem_kept hw (by simpa using h2)]
      exact .inl (hw.roots q nd h1)
    · obtain ⟨x, hx, he⟩ := List.mem_map.1 hq
      simp only [pair, Prod.mk.injEq] at he
      obtain ⟨y, hy, hyr⟩ := hnew hx
      obtain ⟨h1, h2, h3⟩ := newNodes_root hy
      rw [keys_base hB, List.append_nil, ← he.2, ← hyr]
      exact .inr (mem_newNodes.2 ⟨h1, h2, h3, .inl rfl⟩)
end

theorem run_append (s : State) (a b : List Op) : run s (a ++ b) = run (run s a) b := by simp [run]

theorem history_run {own : Nat} {s : State} (h : History own s) : ∃ ops, s = run (fresh own) ops := by
  induction h with
  | fresh => exact ⟨[], rfl⟩
  | next k net answers _ _ _ hs _ _ ih =>
    obtain ⟨ops, rfl⟩ := ih
    exact ⟨ops ++ _, by rw [hs, run_append]⟩

/-- What holds when a call has ended. -/
theorem done_base {s : State} {answers : List Ans} (hw : Orderly s0.nodes) (hl : net.list.Nodup) (h0 : k = .startup → s0.nodes = [])
    (hs : s = run s0 (.start k :: answers.map (.answer s0.calls.length))) (hr : Reports net (since s0 s)) (hend : s.calls[s0.calls.length]? = some (.done (.ok ()))) :
    ∃ new, Base s0 s0.calls.length net s new net.list [] (if new = [] ∧ k = .update then [] else .addedAll s0.calls.length new :: new.map (.added s0.calls.length)) := by
  subst hs
  have hI := inv_run (bad := True) hw hl h0 answers (fun _ _ _ => trivial) (.inr trivial) hr
  obtain ⟨_, _, pc, hpc, hat⟩ := hI
  rw [hend] at hpc
  obtain rfl := Option.some.inj hpc
  exact hat

theorem run_own (s : State) (ops : List Op) : (run s ops).own = s.own := by
  have hload : ∀ (rest : List Nat) (s : State) (i : Nat) (k : Kind) (new : List Nd), (load s i k new rest).own = s.own := by
    intro rest
    induction rest with
    | nil =>
      intro s i k new
      unfold load
      cases k
      · dsimp only; split <;> rfl
      · rfl
    | cons n rest ih =>
      intro s i k new
      unfold load
      split
      · exact ih ..
      · split
        · exact ih ..
        · rfl
  have hrem : ∀ (s : State) (i : Nat) (all : List Str) (l : List Nat) (todo : List Str), (remove s i all l todo).own = s.own := by
    intro s i all l todo
    cases todo <;> unfold remove <;> dsimp only <;> split
    · exact hload ..
    all_goals rfl
  have hann : ∀ (s : State) (i : Nat) (k : Kind) (size : Nat) (todo : List Nd), (announce s i k size todo).own = s.own := by
    intro s i k size todo
    cases todo <;> unfold announce <;> dsimp only <;> split <;> rfl
  induction ops using Model.Conn.snoc_ind with
  | nil => rfl
  | snoc ops o ih =>
    rw [run_snoc]
    refine Eq.trans ?_ ih
    cases o with
    | start k => rfl
    | answer i a =>
      show (answer _ _ _).own = _
      unfold answer
      split
      case h_2 => exact hrem ..
      case h_3 => exact hload ..
      case h_5 => exact hrem ..
      case h_7 => exact hload ..
      case h_9 =>
        dsimp only
        split
        · rfl
        · split
          · rfl
          · exact hload ..
      case h_11 =>
        dsimp only
        split
        · exact hload ..
        · rfl
      case h_13 =>
        dsimp only
        split
        · rfl
        · split
          · exact hload ..
          · rfl
      case h_17 => exact hann ..
      case h_18 => exact hann ..
      case h_20 => exact hann ..
      all_goals rfl

end Lemmas.App
