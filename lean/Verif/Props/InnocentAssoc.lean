import Verif.Spec.Innocent
import Verif.Props.Innocent
/-!
# Property theorems C151: Association
-/
namespace Props.Innocent
open Spec Model Model.Body Model.ClassRun Props.ClassRun
open Model.Listen (Ret)
open Model.Classes (needNum numAttr)

abbrev Groups := Dict Int Classes.Assoc.Group

/-- With the groups `ks`, whenever it goes on, the program keeps them and raises only what is in its items. -/
private def Safe (ks : List Int) : List Item → Prog Groups → Groups → Prop
  | its, .ret r, s => s.keys = ks ∧ ∀ e, r = .error e → ∃ i ∈ its, Blames e i
  | its, .look k, s => Safe ks its (k s) s
  | its, .write f p, s => Safe ks its p (f s)
  | its, .ask q k, s => s.keys = ks ∧ ∀ r s', s'.keys = ks → WholeItem (.asked q (some r)) → Safe ks (its ++ [.asked q (some r)]) (k r) s'
  | its, .send c k, s => s.keys = ks ∧ ∀ r s', s'.keys = ks → Safe ks (its ++ [.sent c (some r)]) (k r) s'

private theorem safe_pause {ks : List Int} {its : List Item} (p : Prog Groups) : ∀ s, Safe ks its p s → Safe ks its (pause p s).2 (pause p s).1 ∧ (pause p s).1.keys = ks := by
  induction p with
  | ret r => intro s h; exact ⟨h, h.1⟩
  | ask q k => intro s h; exact ⟨h, h.1⟩
  | send c k => intro s h; exact ⟨h, h.1⟩
  | look k ih => intro s h; exact ih s s h
  | write f p ih => intro s h; exact ih (f s) h

private theorem safe_waits {ks : List Int} {its : List Item} {p : Prog Groups} (hw : Waits p) {s s' : Groups} (hs : s'.keys = ks) (h : Safe ks its p s) : Safe ks its p s' := by
  cases p with
  | ask q k => exact ⟨hs, h.2⟩
  | send c k => exact ⟨hs, h.2⟩
  | ret r => exact hw.elim
  | look k => exact hw.elim
  | write f p => exact hw.elim

private theorem safe_ok {ks : List Int} {its : List Item} {s : Groups} (v : Ret) (h : s.keys = ks) : Safe ks its (.ret (.ok v)) s := ⟨h, fun _ e => by cases e⟩

/-- What raises what was raised. -/
private theorem safe_error {ks : List Int} {its : List Item} {s : Groups} {e : PyErr} {i : Item} (h : s.keys = ks) (hi : i ∈ its) (hb : Blames e i) : Safe ks its (.ret (.error e)) s := ⟨h, fun _ e' => by cases e'; exact ⟨i, hi, hb⟩⟩

private theorem safe_grouping (supp : Nat → Bool) (g : Int) (ks : List Int) (hg : g ∈ ks) (k : Py Unit → Prog Groups)
    (h1 : ∀ its s, s.keys = ks → Safe ks its (k (.ok ())) s) (h2 : ∀ e its s i, s.keys = ks → i ∈ its → Blames e i → Safe ks its (k (.error e)) s) (its : List Item) (d : Groups)
    (hd : d.keys = ks) : Safe ks its (grouping supp g k) d := by
  unfold grouping
  simp only [Safe]
  rw [if_pos ((mem_keys' d g).2 (hd ▸ hg))]
  refine ⟨hd, fun r d' hd' hw => ?_⟩
  cases r with
  | error e => exact h2 e _ _ (.asked (.group (supp 0x8E) g) (some (.error e))) hd' (by simp) rfl
  | ok m =>
    simp only [Safe]
    rw [update_whole d' g m (supp 0x8E) hw]
    exact h1 _ _ (by rw [keys_update d' g m (hd' ▸ hg)]; exact hd')

private theorem safe_lifeLine (supp : Nat → Bool) (g : Int) (ks : List Int) (its : List Item) (d : Groups) (hd : d.keys = ks) : Safe ks its (lifeLine supp g) d := by
  unfold lifeLine
  dsimp only
  split
  · simp only [Safe]
    cases hg : d.get? g with
    | none => exact safe_ok _ hd
    | some grp =>
      dsimp only
      split
      · exact safe_ok _ hd
      · obtain ⟨m, hm⟩ := lifeLineMsg_ok supp g
        simp only [hm]
        refine ⟨hd, fun r d' hd' => ?_⟩
        cases r with
        | error e => exact safe_error hd' (i := .sent (.lifeLine m) (some (.error e))) (by simp) rfl
        | ok b =>
          refine safe_grouping supp g ks ?_ _ (fun _ _ h => safe_ok _ h) (fun e its s i h hi hb => safe_error h hi hb) _ _ hd'
          rw [← hd]
          exact (mem_keys' d g).1 (by simp [Dict.mem, hg])
  · exact safe_ok _ hd

private theorem safe_groupLoop (supp : Nat → Bool) (ks : List Int) (gs : List Int) (h : ∀ g ∈ gs, g ∈ ks) : ∀ (its : List Item) (d : Groups), d.keys = ks →
    Safe ks its (groupLoop supp ks.length gs) d := by
  have hlen : ∀ d : Groups, d.keys = ks → d.length = ks.length := by
    intro d hd; rw [← hd, Dict.keys, List.length_map]
  induction gs with
  | nil =>
    intro its d hd
    simp only [groupLoop, Safe]
    rw [if_pos (hlen d hd)]
    exact safe_lifeLine supp 1 ks its d hd
  | cons g gs ih =>
    intro its d hd
    simp only [groupLoop, Safe]
    rw [if_pos (hlen d hd)]
    have ih' := ih fun g hg => h g (List.mem_cons_of_mem _ hg)
    refine safe_grouping supp g ks (h g (List.mem_cons_self ..)) _ ih' (fun e its s i hs hi hb => ?_) its d hd
    by_cases he : e = .timeout
    · subst he; exact ih' its s hs
    · cases e <;> first | exact safe_error hs hi hb | exact absurd rfl he

/-! ## How groups are added -/

/-- The numbers of the groups after there were `n` numbers from `i`. -/
private def grow (i : Int) : Nat → List Int → List Int
  | 0, ks => ks
  | n + 1, ks => grow (i + 1) n (if i ∈ ks then ks else ks ++ [i])

private theorem keys_addGroups (n : Nat) : ∀ (i : Int) (d : Groups), (Classes.Assoc.addGroups i n d).keys = grow i n d.keys := by
  induction n with
  | zero => intro i d; rfl
  | succ n ih =>
    intro i d
    rw [Classes.Assoc.addGroups, ih, grow]
    congr 1
    by_cases h : i ∈ d.keys
    · rw [if_pos ((mem_keys' d i).2 h), if_pos h]
    · rw [if_neg fun e => h ((mem_keys' d i).1 e), if_neg h, Dict.keys_set, if_neg h]

private theorem mem_grow (n : Nat) : ∀ (i : Int) (ks : List Int) (g : Int), g ∈ grow i n ks ↔ g ∈ ks ∨ (i ≤ g ∧ g < i + n) := by
  induction n with
  | zero => intro i ks g; simp only [grow]; constructor; exact .inl; rintro (h | h); exact h; omega
  | succ n ih =>
    intro i ks g
    rw [grow, ih]
    by_cases h : i ∈ ks
    · rw [if_pos h]
      constructor
      · rintro (h' | h'); exact .inl h'; exact .inr (by omega)
      · rintro (h' | h'); exact .inl h'
        by_cases e : g = i
        · exact .inl (e ▸ h)
        · exact .inr (by omega)
    · rw [if_neg h, List.mem_append, List.mem_singleton]
      constructor
      · rintro ((h' | h') | h'); exact .inl h'; exact .inr (by omega); exact .inr (by omega)
      · rintro (h' | h'); exact .inl (.inl h')
        by_cases e : g = i
        · exact .inl (.inr e)
        · exact .inr (by omega)

private theorem grow_same (n : Nat) : ∀ (i : Int) (ks : List Int), (∀ g, i ≤ g → g < i + n → g ∈ ks) → grow i n ks = ks := by
  induction n with
  | zero => intro i ks _; rfl
  | succ n ih =>
    intro i ks h
    rw [grow, if_pos (h i (by omega) (by omega))]
    exact ih (i + 1) ks fun g h1 h2 => h g (by omega) (by omega)

private theorem grow_grow (n : Nat) (ks : List Int) : grow 1 n (grow 1 n ks) = grow 1 n ks :=
  grow_same n 1 _ fun g h1 h2 => (mem_grow n 1 ks g).2 (.inr ⟨h1, h2⟩)

/-! ## All schedules -/

/-- The rest of an interview. -/
private def Ready (supp : Nat → Bool) (ks : List Int) (its : List Item) (p : Prog Groups) (a : Groups) : Prop :=
  (∃ r, p = .ret r) ∨ (p = Body.association supp ∧ its = []) ∨ (Waits p ∧ Safe ks its p a)

private structure J (supp : Nat → Bool) (k0 ks : List Int) (s : State Groups) : Prop where
  keys : s.attrs.keys = k0 ∨ s.attrs.keys = ks
  bodies : ∀ i p, s.bodies[i]? = some p → Ready supp ks (itemsOf s.trace i) p s.attrs
  raised : ∀ i e, pcOf s.dec i = some (.done .raised (.error e)) → itemsOf s.trace i = [] ∨ ∃ x ∈ itemsOf s.trace i, Blames e x

private theorem Ready.keep {supp : Nat → Bool} {ks : List Int} {its : List Item} {p : Prog Groups} {a a' : Groups} (h : Ready supp ks its p a) (ha : a.keys = ks → a'.keys = ks) :
    Ready supp ks its p a' := by
  rcases h with h | h | ⟨hw, h⟩
  · exact .inl h
  · exact .inr (.inl h)
  · refine .inr (.inr ⟨hw, safe_waits hw ?_ h⟩)
    cases p with
    | ask q k => exact ha h.1
    | send c k => exact ha h.1
    | ret r => exact hw.elim
    | look k => exact hw.elim
    | write f p => exact hw.elim

private theorem j_go {supp : Nat → Bool} {k0 ks : List Int} {s : State Groups} {i : Nat} {p : Prog Groups}
    (hk : (pause p s.attrs).1.keys = k0 ∨ (pause p s.attrs).1.keys = ks) (hk' : s.attrs.keys = ks → (pause p s.attrs).1.keys = ks)
    (hb : ∀ j q, j ≠ i → s.bodies[j]? = some q → Ready supp ks (itemsOf s.trace j) q s.attrs)
    (hr : ∀ j e, j ≠ i → pcOf s.dec j = some (.done .raised (.error e)) → itemsOf s.trace j = [] ∨ ∃ x ∈ itemsOf s.trace j, Blames e x)
    (hpc : pcOf s.dec i = some .body)
    (h1 : ∀ e, (pause p s.attrs).2 = .ret (.error e) → ∃ x ∈ itemsOf s.trace i, Blames e x)
    (h2 : Ready supp ks (itemsOf s.trace i) (pause p s.attrs).2 (pause p s.attrs).1) : J supp k0 ks (go s i p) := by
  have hset : ∀ (x : Prog Groups) j q, (s.bodies.set i x)[j]? = some q → (j = i ∧ q = x) ∨ (j ≠ i ∧ s.bodies[j]? = some q) := by
    intro x j q h
    by_cases hj : j = i
    · subst hj
      refine .inl ⟨rfl, ?_⟩
      rw [List.getElem?_set_self' ] at h
      cases hs : s.bodies[j]? with
      | none => rw [hs] at h; cases h
      | some y => rw [hs] at h; cases h; rfl
    · rw [List.getElem?_set_ne fun e => hj e.symm] at h
      exact .inr ⟨hj, h⟩
  rcases pause_waits p s.attrs with hw | ⟨r, hr'⟩
  · rw [go_wait s i p hw]
    refine ⟨hk, fun j q hq => ?_, fun j e hj => ?_⟩
    · rcases hset _ j q hq with ⟨rfl, rfl⟩ | ⟨hj, hq⟩
      · exact h2
      · exact (hb j q hj hq).keep hk'
    · have : j ≠ i := by rintro rfl; rw [hpc] at hj; cases hj
      exact hr j e this hj
  · rw [go_ret s i p r hr']
    obtain ⟨e1, e2, e3, how, x, e4, e5, e6⟩ := ended s.dec i r hpc
    refine ⟨hk, fun j q hq => ?_, fun j e hj => ?_⟩
    · rcases hset _ j q hq with ⟨rfl, rfl⟩ | ⟨hj, hq⟩
      · exact .inl ⟨_, rfl⟩
      · exact (hb j q hj hq).keep hk'
    · by_cases hji : j = i
      · subst hji
        simp only [e4, Option.some.injEq, Interview.Pc.done.injEq] at hj
        obtain ⟨rfl, rfl⟩ := hj
        have := e5 (.inr rfl)
        subst this
        exact .inr (h1 e hr')
      · rw [e1 j hji] at hj
        exact hr j e hji hj

private theorem j_step {supp : Nat → Bool} {n : Int} {k0 ks : List Int} (hk0 : grow 1 n.toNat k0 = ks) {s : State Groups} (hI : Inv (ClassRun.association supp) s) (h : J supp k0 ks s) (o : Op Groups)
    (ho : (∀ v b f, o ≠ .load v b f) ∧ ∀ f, o ≠ .others f) (hw : ∀ x ∈ (step (ClassRun.association supp) s o).trace, WholeItem x.item)
    (hn : Groupings n (step (ClassRun.association supp) s o).trace) : J supp k0 ks (step (ClassRun.association supp) s o) := by
  have hnone : pcOf s.dec s.dec.calls.length = none := by simp [pcOf]
  have hnil : itemsOf s.trace s.dec.calls.length = [] := by
    have := hI.calls s.dec.calls.length
    rw [hnone] at this
    exact this.2
  have htr : ∀ (s : State Groups) i p, (go s i p).trace = s.trace := by
    intro s i p
    unfold go
    dsimp only
    split <;> rfl
  have new : ∀ j q, (s.bodies ++ [Prog.ret (.ok .none)])[j]? = some q → Ready supp ks (itemsOf s.trace j) q s.attrs := by
    intro j q hq
    rcases Nat.lt_or_ge j s.bodies.length with hj | hj
    · rw [List.getElem?_append_left hj] at hq; exact h.bodies j q hq
    · rw [List.getElem?_append_right hj] at hq
      have : q = .ret (.ok .none) := by
        cases hx : j - s.bodies.length with
        | zero => rw [hx] at hq; cases hq; rfl
        | succ k => rw [hx] at hq; cases hq
      exact .inl ⟨_, this⟩
  cases o with
  | interview =>
    obtain ⟨e1, e2, e3, e4⟩ := begins s.dec .interview (.inl rfl)
    simp only [step]
    split
    · rename_i hb
      refine j_go h.keys (fun x => x) (fun j q _ => new j q) (fun j e hj hp => ?_) hb (fun e he => by cases he) (.inr (.inl ⟨rfl, hnil⟩))
      simp only [e1 j hj] at hp
      exact h.raised j e hp
    · refine ⟨h.keys, new, fun j e hp => ?_⟩
      by_cases hj : j = s.dec.calls.length
      · subst hj; exact .inl hnil
      · simp only [e1 j hj] at hp; exact h.raised j e hp
  | requestVersion =>
    obtain ⟨e1, e2, e3, e4⟩ := begins s.dec .requestVersion (.inr rfl)
    refine ⟨h.keys, new, fun j e hp => ?_⟩
    by_cases hj : j = s.dec.calls.length
    · subst hj; exact .inl hnil
    · simp only [step, e1 j hj] at hp; exact h.raised j e hp
  | versionAnswer i r =>
    obtain ⟨e1, e2, e3, e4⟩ := answered s.dec i r
    have hit : pcOf s.dec i = some .version → itemsOf s.trace i = [] := by
      intro hv
      have := hI.calls i
      rw [hv] at this
      exact this.2
    simp only [step]
    split
    · rename_i hb
      refine j_go h.keys (fun x => x) (fun j q _ => h.bodies j q) (fun j e hj hp => ?_) hb.2 (fun e he => by cases he) (.inr (.inl ⟨rfl, hit hb.1⟩))
      simp only [e1 j hj] at hp
      exact h.raised j e hp
    · refine ⟨h.keys, h.bodies, fun j e hp => ?_⟩
      by_cases hj : j = i
      · subst hj
        rcases e4 with e4 | ⟨e4, -⟩
        · simp only [e4] at hp; exact h.raised j e hp
        · exact .inl (hit e4)
      · simp only [e1 j hj] at hp; exact h.raised j e hp
  | answer i r =>
    simp only [step] at hw hn ⊢
    cases hq : s.bodies[i]? with
    | none => exact h
    | some p =>
      cases p with
      | ret r => exact h
      | send c k => exact h
      | look k => exact h
      | write f p => exact h
      | ask q k =>
        rw [hq] at hw hn
        simp only [htr] at hw hn
        dsimp only
        have hwi := hw ⟨i, .asked q (some r)⟩ (by simp)
        have hpc : pcOf s.dec i = some .body := by
          have hi := hI.calls i
          rw [hq] at hi
          revert hi
          unfold Ok
          split
          · rintro ⟨h, -⟩; cases h
          · rintro ⟨⟨_, h⟩, -⟩; cases h
          · rename_i hp; intro _; exact hp
          · rintro ⟨⟨_, h⟩, -⟩; cases h
        have hb : ∀ j q', j ≠ i → s.bodies[j]? = some q' → Ready supp ks (itemsOf (s.trace ++ [⟨i, .asked q (some r)⟩]) j) q' s.attrs := by
          intro j q' hj hq'
          rw [items_snoc, if_neg hj]; exact h.bodies j q' hq'
        have hr : ∀ j e, j ≠ i → pcOf s.dec j = some (.done .raised (.error e)) → itemsOf (s.trace ++ [⟨i, .asked q (some r)⟩]) j = [] ∨
            ∃ x ∈ itemsOf (s.trace ++ [⟨i, .asked q (some r)⟩]) j, Blames e x := by
          intro j e hj hp
          rw [items_snoc, if_neg hj]; exact h.raised j e hp
        have main : ∀ a : Groups, Safe ks (itemsOf s.trace i ++ [.asked q (some r)]) (k r) a → a = s.attrs →
            J supp k0 ks (go { s with trace := s.trace ++ [⟨i, .asked q (some r)⟩] } i (k r)) := by
          rintro a hs rfl
          obtain ⟨h1, h2⟩ := safe_pause (k r) _ hs
          refine j_go (.inr h2) (fun _ => h2) hb hr hpc (fun e he => ?_) ?_
          · rw [he] at h1
            simp only [items_snoc, if_true]
            exact h1.2 e rfl
          · simp only [items_snoc, if_true]
            rcases pause_waits (k r) s.attrs with hw | hr
            · exact .inr (.inr ⟨hw, h1⟩)
            · exact .inl hr
        rcases h.bodies i _ hq with ⟨_, hx⟩ | ⟨hx, hi⟩ | ⟨-, hx⟩
        · cases hx
        · unfold Body.association at hx
          simp only [Prog.ask.injEq] at hx
          obtain ⟨rfl, rfl⟩ := hx
          cases r with
          | error e =>
            refine j_go h.keys (fun x => x) hb hr hpc (fun e' he => ?_) (.inl ⟨_, rfl⟩)
            simp only [pause, Prog.ret.injEq, Except.error.injEq] at he
            subst he
            exact ⟨.asked .groupings (some (.error e)), by rw [items_snoc, if_pos rfl]; exact List.mem_append_right _ (List.mem_singleton.2 rfl), rfl⟩
          | ok m =>
            have hm := hn ⟨i, .asked .groupings (some (.ok m))⟩ (by simp) m rfl
            refine main _ ?_ rfl
            have hks : (Classes.Assoc.setNumGroups s.attrs n).keys = ks := by
              rw [Classes.Assoc.setNumGroups, keys_addGroups]
              rcases h.keys with e | e
              · rw [e]; exact hk0
              · rw [e, ← hk0]; exact grow_grow _ _
            have hlen : (Classes.Assoc.setNumGroups s.attrs n).length = ks.length := by rw [← hks, Dict.keys, List.length_map]
            simp only [hm, Safe]
            rw [hks, hlen]
            exact safe_groupLoop supp ks ks (fun _ h => h) _ _ hks
        · exact main _ (hx.2 r _ hx.1 hwi) rfl
  | acked i r =>
    simp only [step] at hw hn ⊢
    cases hq : s.bodies[i]? with
    | none => exact h
    | some p =>
      cases p with
      | ret r => exact h
      | ask c k => exact h
      | look k => exact h
      | write f p => exact h
      | send q k =>
        dsimp only
        have hpc : pcOf s.dec i = some .body := by
          have hi := hI.calls i
          rw [hq] at hi
          revert hi
          unfold Ok
          split
          · rintro ⟨h, -⟩; cases h
          · rintro ⟨⟨_, h⟩, -⟩; cases h
          · rename_i hp; intro _; exact hp
          · rintro ⟨⟨_, h⟩, -⟩; cases h
        rcases h.bodies i _ hq with ⟨_, hx⟩ | ⟨hx, hi⟩ | ⟨-, hx⟩
        · cases hx
        · cases hx
        · have hs := hx.2 r _ hx.1
          obtain ⟨h1, h2⟩ := safe_pause (k r) _ hs
          refine j_go (.inr h2) (fun _ => h2) (fun j q' hj hq' => ?_) (fun j e hj hp => ?_) hpc (fun e he => ?_) ?_
          · simp only [items_snoc, if_neg hj]; exact h.bodies j q' hq'
          · simp only [items_snoc, if_neg hj]; exact h.raised j e hp
          · rw [he] at h1
            simp only [items_snoc, if_true]
            exact h1.2 e rfl
          · simp only [items_snoc, if_true]
            rcases pause_waits (k r) s.attrs with hw | hr
            · exact .inr (.inr ⟨hw, h1⟩)
            · exact .inl hr
  | load v b f => exact absurd rfl (ho.1 v b f)
  | others f => exact absurd rfl (ho.2 f)

private theorem trace_mono {σ : Type} (c : Cls σ) (s : State σ) (o : Op σ) : ∀ x ∈ s.trace, x ∈ (step c s o).trace := by
  have htr : ∀ (s : State σ) i p, (go s i p).trace = s.trace := by
    intro s i p
    unfold go
    dsimp only
    split <;> rfl
  intro x hx
  cases o with
  | interview => simp only [step]; split; rw [htr]; exact hx; exact hx
  | requestVersion => exact hx
  | versionAnswer i r => simp only [step]; split; rw [htr]; exact hx; exact hx
  | answer i r => simp only [step]; split; rw [htr]; exact List.mem_append_left _ hx; exact hx
  | acked i r => simp only [step]; split; rw [htr]; exact List.mem_append_left _ hx; exact hx
  | load v b f => exact hx
  | others f => exact hx

/-- **C151**, Association in every schedule of overlapping interviews: it holds if the node always says the same number of groups. -/
theorem C151_same_partial (supp : Nat → Bool) (n : Int) (id : Nat) (a : Groups) (ops : List (Op Groups)) (i : Nat) (e : PyErr) (ho : OnlyAsked ops)
    (hw : ∀ x ∈ (run (ClassRun.association supp) (fresh id a) ops).trace, WholeItem x.item) (hn : Groupings n (run (ClassRun.association supp) (fresh id a) ops).trace)
    (hr : Raised (run (ClassRun.association supp) (fresh id a) ops) i e) : ∃ x ∈ itemsOf (run (ClassRun.association supp) (fresh id a) ops).trace i, Blames e x := by
  have key : J supp a.keys (grow 1 n.toNat a.keys) (run (ClassRun.association supp) (fresh id a) ops) := by
    clear hr
    induction ops using Conn.snoc_ind with
    | nil =>
      refine ⟨.inl rfl, fun i p h => ?_, fun i e h => ?_⟩
      · simp [run, fresh] at h
      · simp [run, fresh, Interview.fresh, pcOf] at h
    | snoc ops o ih =>
      have ho' : OnlyAsked ops := fun o' h => ho o' (List.mem_append_left _ h)
      rw [run, List.foldl_append] at hw hn ⊢
      have hm := trace_mono (ClassRun.association supp) (run (ClassRun.association supp) (fresh id a) ops) o
      exact j_step rfl (inv_run _ id a ops fun o' h v f => (ho' o' h).1 v true f) (ih ho' (fun x hx => hw x (hm x hx)) fun x hx => hn x (hm x hx)) o (ho o (by simp)) hw hn
  obtain ⟨⟨b, hc⟩, hi⟩ := hr
  rcases key.raised i e (pcOf_some hc) with h | h
  · exact absurd h hi
  · exact h

/-- Two interviews of a node with two groups that overlap; the send of the first one raises, so it raises the same. -/
def sameGroups : List (Op Groups) :=
  [.interview, .versionAnswer 0 (.ok 2), .interview, .answer 0 (decode [0x85, 0x06, 0x02]), .answer 0 (decode [0x85, 0x03, 0x01, 0x05, 0x00]), .answer 1 (decode [0x85, 0x06, 0x02]),
    .answer 0 (decode [0x85, 0x03, 0x02, 0x05, 0x00, 0x07]), .acked 0 (.error .duplicateAck)]

private def saysTwo : Item → Bool
  | .asked .groupings (some (.ok m)) => match needNum m "supportedGroupings" with | .ok v => v == 2 | .error _ => false
  | _ => true

example : OnlyAsked sameGroups ∧ Groupings 2 (run (ClassRun.association fun c => c == 0x5E) (fresh 0x85 []) sameGroups).trace ∧
    Raised (run (ClassRun.association fun c => c == 0x5E) (fresh 0x85 []) sameGroups) 0 .duplicateAck := by
  refine ⟨by simp [OnlyAsked, sameGroups], fun x hx m hm => ?_, ⟨false, by decide +kernel⟩, by decide +kernel⟩
  have key : ∀ x ∈ (run (ClassRun.association fun c => c == 0x5E) (fresh 0x85 []) sameGroups).trace, saysTwo x.item = true := by decide +kernel
  have := key x hx
  rw [hm] at this
  unfold saysTwo at this
  dsimp only at this
  split at this
  · rename_i v hv; rw [hv, eq_of_beq this]
  · cases this

end Props.Innocent
