import Verif.Model.Classes
import Verif.Lemmas.Dict
/-!
# Associations (C61, C62)
-/
namespace Props.Association
open Model Model.Classes Model.Classes.Assoc

/-- What an answer tells about group `g`: the maximum and the nodes, if it is a report for that group. -/
def heard (r : Py Msg) (g : Int) : Option Group :=
  match r with
  | .error _ => none
  | .ok m =>
    if numAttr m "groupingIdentifier" = some g then
      match numAttr m "maxNodesSupported", getAttr registry m "nodes" with
      | some mx, some (.nodes l) => some ⟨mx, l⟩
      | _, _ => none
    else none

/-- The answer is a report for some group that is not truncated before the maximum, or there was none in time. -/
def Orderly (r : Py Msg) : Prop :=
  r = .error .timeout ∨ ∃ m mx l, r = .ok m ∧ numAttr m "maxNodesSupported" = some mx ∧ getAttr registry m "nodes" = some (.nodes l)

/-- What is held for a group after asking for it: what was heard, else what was known, else an empty group. -/
def held (d : Dict Int Group) (r : Py Msg) (g : Int) : Group := ((heard r g).or (d.get? g)).getD ⟨0, []⟩

/-- The controller is among the nodes. -/
def HasController (l : List (Nat × Option Nat)) : Prop := (1, none) ∈ l ∨ (1, some 0) ∈ l

/-- A Z-Wave Plus node whose group 1 exists without the controller. -/
def NeedsLifeLine (supp : Nat → Bool) (d : Dict Int Group) : Prop := supp 0x5E = true ∧ ∃ grp, d.get? 1 = some grp ∧ ¬ HasController grp.nodes

private theorem get_addGroups (n : Nat) : ∀ (i : Int) (d : Dict Int Group) (g : Int),
    (addGroups i n d).get? g = if d.mem g = false ∧ i ≤ g ∧ g < i + n then some ⟨0, []⟩ else d.get? g := by
  induction n with
  | zero => intro i d g; rw [if_neg (by omega)]; rfl
  | succ n ih =>
    intro i d g
    rw [addGroups, ih]
    by_cases hi : d.mem i = true
    · rw [if_pos hi]
      by_cases hg : d.mem g = false ∧ i ≤ g ∧ g < i + (n + 1 : Nat)
      · rw [if_pos hg, if_pos]
        refine ⟨hg.1, ?_, by omega⟩
        have : i ≠ g := by rintro rfl; rw [hi] at hg; cases hg.1
        omega
      · rw [if_neg hg, if_neg]
        rintro ⟨h1, h2, h3⟩
        exact hg ⟨h1, by omega, by omega⟩
    · rw [if_neg hi]
      have hi : d.mem i = false := by simpa using hi
      by_cases e : i = g
      · subst e
        rw [if_neg (by omega), if_pos ⟨hi, by omega, by omega⟩]
        simp
      · rw [Dict.get?_set_ne _ _ e]
        have hm : (d.set i ⟨0, []⟩).mem g = d.mem g := by simp [Dict.mem, Dict.get?_set_ne _ _ e]
        rw [hm]
        by_cases hg : d.mem g = false ∧ i ≤ g ∧ g < i + (n + 1 : Nat)
        · rw [if_pos hg, if_pos ⟨hg.1, by omega, by omega⟩]
        · rw [if_neg hg, if_neg]
          rintro ⟨h1, h2, h3⟩
          exact hg ⟨h1, by omega, by omega⟩

private theorem mem_eq {α : Type} (d : Dict Int α) (g : Int) : d.mem g = true ↔ g ∈ d.keys := Dict.get?_isSome_iff d g

private theorem get_setNumGroups (d : Dict Int Group) (n g : Int) :
    (setNumGroups d n).get? g = if d.mem g = false ∧ 1 ≤ g ∧ g ≤ n then some ⟨0, []⟩ else d.get? g := by
  rw [setNumGroups, get_addGroups]
  have : (d.mem g = false ∧ 1 ≤ g ∧ g < 1 + (n.toNat : Int)) ↔ (d.mem g = false ∧ 1 ≤ g ∧ g ≤ n) := by
    refine and_congr_right fun _ => ?_
    omega
  simp only [this]

private theorem mem_setNumGroups (d : Dict Int Group) (n g : Int) : (setNumGroups d n).mem g = true ↔ d.mem g = true ∨ (1 ≤ g ∧ g ≤ n) := by
  unfold Dict.mem
  rw [get_setNumGroups]
  by_cases h : d.mem g = false ∧ 1 ≤ g ∧ g ≤ n
  · rw [if_pos h]; simp [h.2]
  · rw [if_neg h]
    constructor
    · exact Or.inl
    · rintro (h1 | h1)
      · exact h1
      · cases hm : d.mem g with
        | true => exact hm
        | false => exact absurd ⟨hm, h1⟩ h

private theorem update_mem (d : Dict Int Group) (g : Int) (m : Msg) (hg : d.mem g = true) (k : Int) : (update d g m).1.mem k = d.mem k := by
  unfold update
  split
  · split
    · rfl
    · split
      · unfold Dict.mem
        rw [Dict.get?_set]
        split
        · rename_i e; subst e; simpa [Dict.mem] using hg.symm
        · rfl
      · rfl
  · rfl

private theorem ig_mem (supp : Nat → Bool) (d : Dict Int Group) (g : Int) (r : Py Msg) (k : Int) : (interviewGrouping supp d g r).1.mem k = d.mem k := by
  unfold interviewGrouping
  split
  · split
    · rfl
    · rename_i hg _ m; exact update_mem d g m hg k
  · rfl

private theorem ia_mem (supp : Nat → Bool) (ans : Int → Py Msg) (l : List Int) (d : Dict Int Group) (k : Int) : (interviewAll supp ans l d).1.mem k = d.mem k := by
  induction l generalizing d with
  | nil => rfl
  | cons g gs ih =>
    simp only [interviewAll]
    split
    · rw [ih, ig_mem]
    · rw [ih, ig_mem]
    · rw [ig_mem]

private theorem sl_mem (supp : Nat → Bool) (d : Dict Int Group) (g : Int) (sent : Py Bool) (r : Py Msg) (k : Int) :
    (setupLifeLine supp d g sent r).1.mem k = d.mem k := by
  unfold setupLifeLine
  split
  · split
    · rfl
    · split
      · rfl
      · split
        · rfl
        · split
          · rfl
          · exact ig_mem _ _ _ _ _
  · rfl

/-- C61: whatever is answered or raised, groups never disappear; and once the number of groups has been answered there is a group for each advertised number, and no
other new one. -/
theorem C61_groups (supp : Nat → Bool) (d : Dict Int Group) (first : Py Msg) (ans : Int → Py Msg) (sent : Py Bool) (r : Py Msg) (g : Int) :
    (interview supp d first ans sent r).1.mem g = true ↔
      d.mem g = true ∨ ∃ m n, first = .ok m ∧ numAttr m "supportedGroupings" = some n ∧ 1 ≤ g ∧ g ≤ n := by
  cases first with
  | error e => simp [interview]
  | ok m =>
    cases hn : numAttr m "supportedGroupings" with
    | none => simp [interview, needNum, hn]
    | some n =>
      have : (interview supp d (.ok m) ans sent r).1.mem g = (setNumGroups d n).mem g := by
        simp only [interview, needNum, hn]
        split
        · rw [ia_mem]
        · rw [sl_mem, ia_mem]
      rw [this, mem_setNumGroups]
      constructor
      · rintro (h | h)
        · exact Or.inl h
        · exact Or.inr ⟨m, n, rfl, hn, h.1, h.2⟩
      · rintro (h | ⟨m', n', h1, h2, h3, h4⟩)
        · exact Or.inl h
        · cases h1; rw [hn] at h2; cases h2; exact Or.inr ⟨h3, h4⟩

/-- One group is asked for. -/
private theorem ig_get (supp : Nat → Bool) (d : Dict Int Group) (g : Int) (r : Py Msg) (hg : d.mem g = true) (ho : Orderly r) :
    ((interviewGrouping supp d g r).2.2 = .ok () ∨ (interviewGrouping supp d g r).2.2 = .error .timeout) ∧
    (interviewGrouping supp d g r).2.1 = [.ask (supp 0x8E) g] ∧
    ∀ k, (interviewGrouping supp d g r).1.get? k = if g = k then some (held d r g) else d.get? k := by
  obtain ⟨grp, hgrp⟩ := Option.isSome_iff_exists.1 hg
  rcases ho with rfl | ⟨m, mx, l, rfl, h1, h2⟩
  · simp only [interviewGrouping, hg, if_true]
    refine ⟨by simp, by simp, ?_⟩
    intro k
    by_cases e : g = k
    · subst e; simp [held, heard, hgrp]
    · simp [e]
  · simp only [interviewGrouping, hg, if_true, update, needNum, h1, h2]
    by_cases hid : numAttr m "groupingIdentifier" = some g
    · simp only [hid, if_true, true_and]
      refine ⟨by simp, ?_⟩
      intro k
      rw [Dict.get?_set]
      by_cases e : g = k
      · subst e; simp [held, heard, hid, h1, h2]
      · simp [e]
    · simp only [hid, if_false, true_and]
      refine ⟨by simp, ?_⟩
      intro k
      by_cases e : g = k
      · subst e; simp [held, heard, hid, hgrp]
      · simp [e]

private theorem ia_get (supp : Nat → Bool) (ans : Int → Py Msg) (ho : ∀ g, Orderly (ans g)) (l : List Int) :
    ∀ (d : Dict Int Group), (∀ g ∈ l, d.mem g = true) → l.Nodup →
      (interviewAll supp ans l d).2.2 = .ok () ∧ (interviewAll supp ans l d).2.1 = l.map (Ev.ask (supp 0x8E)) ∧
      ∀ k, (interviewAll supp ans l d).1.get? k = if k ∈ l then some (held d (ans k) k) else d.get? k := by
  induction l with
  | nil => intro d _ _; simp [interviewAll]
  | cons g gs ih =>
    intro d hm hnd
    obtain ⟨h1, h2, h3⟩ := ig_get supp d g (ans g) (hm g List.mem_cons_self) (ho g)
    have hmem : ∀ k ∈ gs, (interviewGrouping supp d g (ans g)).1.mem k = true := by
      intro k hk; rw [ig_mem]; exact hm k (List.mem_cons_of_mem _ hk)
    obtain ⟨i1, i2, i3⟩ := ih _ hmem (List.nodup_cons.1 hnd).2
    have key : interviewAll supp ans (g :: gs) d =
        ((interviewAll supp ans gs (interviewGrouping supp d g (ans g)).1).1,
          (interviewGrouping supp d g (ans g)).2.1 ++ (interviewAll supp ans gs (interviewGrouping supp d g (ans g)).1).2.1,
          (interviewAll supp ans gs (interviewGrouping supp d g (ans g)).1).2.2) := by
      simp only [interviewAll]
      rcases h1 with h1 | h1 <;> rw [h1]
    rw [key]
    refine ⟨i1, ?_, ?_⟩
    · simp [h2, i2]
    · intro k
      have hgk : g ∉ gs := (List.nodup_cons.1 hnd).1
      rw [i3]
      by_cases hk : k ∈ gs
      · have hne : g ≠ k := by rintro rfl; exact hgk hk
        rw [if_pos hk, if_pos (List.mem_cons_of_mem _ hk)]
        simp [held, h3, hne]
      · rw [if_neg hk, h3]
        by_cases e : g = k
        · subst e; simp
        · have e' : ¬ k = g := fun x => e x.symm
          simp [e, hk, e']

private theorem nodup_addGroups (n : Nat) : ∀ (i : Int) (d : Dict Int Group), d.keys.Nodup → (addGroups i n d).keys.Nodup := by
  induction n with
  | zero => intro i d h; exact h
  | succ n ih =>
    intro i d h
    rw [addGroups]
    apply ih
    split
    · exact h
    · exact Dict.nodup_set h

/-- The groups after the number of groups is known. -/
def advertised (d : Dict Int Group) (n : Int) (g : Int) : Prop := d.mem g = true ∨ (1 ≤ g ∧ g ≤ n)

private theorem held_setNumGroups (d : Dict Int Group) (n : Int) (r : Py Msg) (g : Int) : held (setNumGroups d n) r g = held d r g := by
  unfold held
  rw [get_setNumGroups]
  split
  · rename_i h
    have : d.get? g = none := by
      cases hx : d.get? g with
      | none => rfl
      | some _ => simp [Dict.mem, hx] at h
    cases heard r g <;> simp [this]
  · rfl

/-- The first phase of the interview. -/
private theorem phase (supp : Nat → Bool) (d : Dict Int Group) (hd : d.keys.Nodup) (n : Int) (ans : Int → Py Msg) (ho : ∀ g, Orderly (ans g)) :
    let a := interviewAll supp ans (setNumGroups d n).keys (setNumGroups d n)
    a.2.2 = .ok () ∧ a.2.1 = (setNumGroups d n).keys.map (Ev.ask (supp 0x8E)) ∧ (∀ g, advertised d n g → a.1.get? g = some (held d (ans g) g)) ∧
      ∀ g, ¬ advertised d n g → a.1.get? g = none := by
  intro a
  obtain ⟨h1, h2, h3⟩ := ia_get supp ans ho (setNumGroups d n).keys (setNumGroups d n) (fun g hg => (mem_eq _ _).2 hg) (nodup_addGroups _ _ _ hd)
  refine ⟨h1, h2, ?_, ?_⟩
  · intro g hg
    have : g ∈ (setNumGroups d n).keys := (mem_eq _ _).1 ((mem_setNumGroups d n g).2 hg)
    rw [h3, if_pos this, held_setNumGroups]
  · intro g hg
    have : g ∉ (setNumGroups d n).keys := fun h => hg ((mem_setNumGroups d n g).1 ((mem_eq _ _).2 h))
    rw [h3, if_neg this]
    exact (Dict.get?_eq_none_iff _ _).2 this

private theorem contains_iff (l : List (Nat × Option Nat)) : contains l 1 0 = true ↔ HasController l := by
  unfold contains HasController
  rw [List.any_eq_true]
  constructor
  · rintro ⟨⟨n, e⟩, hm, h⟩
    simp at h
    obtain ⟨rfl, h⟩ := h
    cases e with
    | none => exact Or.inl hm
    | some e => simp at h; subst h; exact Or.inr hm
  · rintro (h | h)
    · exact ⟨_, h, rfl⟩
    · exact ⟨_, h, rfl⟩

/-- The association that is sent. -/
def lifeLineBytes (supp : Nat → Bool) : Spec.Bytes := if supp 0x60 = true ∧ supp 0x8E = true then [0x8E, 0x01, 0x01, 0x00, 0x01, 0x00] else [0x85, 0x01, 0x01, 0x01]

private theorem lifeLineMsg_ok (supp : Nat → Bool) : ∃ m, lifeLineMsg supp 1 = .ok m ∧ compose m = .ok (lifeLineBytes supp) := by
  unfold lifeLineMsg lifeLineBytes
  cases supp 0x60 <;> cases supp 0x8E
  · exact ⟨_, rfl, by decide +kernel⟩
  · exact ⟨_, rfl, by decide +kernel⟩
  · exact ⟨_, rfl, by decide +kernel⟩
  · exact ⟨_, rfl, by decide +kernel⟩

/-- C62: setupLifeLine() sends an association to the controller exactly if the node is Z-Wave Plus and group 1 exists without the controller. The bytes are those of a
multi channel association (group 1, no plain nodes, node 1 endpoint 0) exactly if the node supports both multi channel classes, else of a plain one (group 1, node 1).
Nothing is sent more than once and otherwise nothing at all happens. -/
theorem C62_lifeline (supp : Nat → Bool) (d : Dict Int Group) (sent : Py Bool) (r : Py Msg) :
    (NeedsLifeLine supp d → ∃ m rest, (setupLifeLine supp d 1 sent r).2.1 = .set m :: rest ∧ compose m = .ok (lifeLineBytes supp) ∧ ∀ m', Ev.set m' ∉ rest) ∧
    (¬ NeedsLifeLine supp d → setupLifeLine supp d 1 sent r = (d, [], .ok ())) := by
  constructor
  · rintro ⟨hp, grp, hg, hc⟩
    obtain ⟨m, hm, hb⟩ := lifeLineMsg_ok supp
    have hc' : contains grp.nodes 1 0 = false := by
      cases hx : contains grp.nodes 1 0 with
      | false => rfl
      | true => exact absurd ((contains_iff _).1 hx) hc
    have hmem : d.mem 1 = true := by simp [Dict.mem, hg]
    refine ⟨m, (match sent with | .ok _ => [.ask (supp 0x8E) 1] | .error _ => []), ?_, hb, ?_⟩
    · cases sent with
      | error e => simp [setupLifeLine, hp, hg, hc', hm]
      | ok b =>
        cases r <;> simp [setupLifeLine, hp, hg, hc', hm, interviewGrouping, hmem]
    · cases sent <;> simp
  · intro hn
    unfold setupLifeLine
    split
    · rename_i hp
      cases hg : d.get? 1 with
      | none => rfl
      | some grp =>
        simp only
        split
        · rfl
        · rename_i hc
          exact absurd ⟨hp, grp, hg, fun h => hc ((contains_iff _).2 h)⟩ hn
    · rfl

/-- A Z-Wave Plus node with both multi channel classes whose lifeline group holds node 5. -/
example : NeedsLifeLine (fun c => c == 0x5E || c == 0x60 || c == 0x8E) [(1, ⟨5, [(5, none), (1, some 2)]⟩)] ∧
    ¬ NeedsLifeLine (fun c => c == 0x5E) [(1, ⟨5, [(1, none)]⟩)] := by
  constructor
  · exact ⟨rfl, _, rfl, by unfold HasController; decide⟩
  · rintro ⟨-, g, hg, hc⟩
    cases hg
    exact hc (Or.inl (by decide))

/-- C61: an interview in which requests are answered by well-formed reports or time out asks for each group once and ends with each advertised (or already known) group
holding what was reported for it, or, if its answer did not come, what was known before. Group 1 is asked for again after a lifeline association was sent. -/
theorem C61_content (supp : Nat → Bool) (d : Dict Int Group) (hd : d.keys.Nodup) (m : Msg) (n : Int) (hn : numAttr m "supportedGroupings" = some n)
    (ans : Int → Py Msg) (ho : ∀ g, Orderly (ans g)) (sent : Py Bool) (r : Py Msg) (hr : Orderly r) (d' : Dict Int Group) (ev : List Ev) (res : Py Unit)
    (h : interview supp d (.ok m) ans sent r = (d', ev, res)) :
    (∀ g, advertised d n g → g ≠ 1 → d'.get? g = some (held d (ans g) g)) ∧
    (advertised d n 1 →
      (supp 0x5E = false ∨ HasController (held d (ans 1) 1).nodes ∨ (∃ e, sent = .error e) → d'.get? 1 = some (held d (ans 1) 1)) ∧
      (supp 0x5E = true → ¬ HasController (held d (ans 1) 1).nodes → ∀ b, sent = .ok b → d'.get? 1 = some ((heard r 1).getD (held d (ans 1) 1)))) ∧
    (∃ (asked : List Int) (rest : List Ev), ev = .askGroups :: asked.map (Ev.ask (supp 0x8E)) ++ rest ∧ asked.Nodup ∧ (∀ g, g ∈ asked ↔ advertised d n g) ∧
      (supp 0x5E = true ∧ advertised d n 1 ∧ ¬ HasController (held d (ans 1) 1).nodes →
        ∃ x rest', rest = .set x :: rest' ∧ compose x = .ok (lifeLineBytes supp) ∧ ∀ m', Ev.set m' ∉ rest') ∧
      (¬ (supp 0x5E = true ∧ advertised d n 1 ∧ ¬ HasController (held d (ans 1) 1).nodes) → rest = [])) := by
  obtain ⟨p1, p2, p3, p4⟩ := phase supp d hd n ans ho
  simp only [interview, needNum, hn, p1] at h
  generalize hb : interviewAll supp ans (setNumGroups d n).keys (setNumGroups d n) = a at *
  injection h with h1 h
  injection h with h2 h3
  subst h1; subst h2
  have other : ∀ g, g ≠ 1 → (setupLifeLine supp a.1 1 sent r).1.get? g = a.1.get? g := by
    intro g hg
    unfold setupLifeLine
    split
    · cases hgrp : a.1.get? 1 with
      | none => rfl
      | some grp =>
        have hm1 : a.1.mem 1 = true := by simp [Dict.mem, hgrp]
        simp only
        split
        · rfl
        · split
          · rfl
          · split
            · rfl
            · rw [(ig_get supp a.1 1 r hm1 hr).2.2, if_neg (fun e => hg e.symm)]
    · rfl
  refine ⟨?_, ?_, ?_⟩
  · intro g hg hne
    rw [other g hne, p3 g hg]
  · intro h1
    have hg1 := p3 1 h1
    have hm1 : a.1.mem 1 = true := by simp [Dict.mem, hg1]
    constructor
    · rintro (hx | hx | ⟨e, rfl⟩)
      · rw [(C62_lifeline supp a.1 sent r).2 (by rintro ⟨hp, -⟩; rw [hx] at hp; cases hp)]; exact hg1
      · rw [(C62_lifeline supp a.1 sent r).2 (by rintro ⟨-, grp, hg, hc⟩; rw [hg1] at hg; cases hg; exact hc hx)]; exact hg1
      · unfold setupLifeLine
        split
        · rw [hg1]
          simp only
          split
          · exact hg1
          · split
            · exact hg1
            · exact hg1
        · exact hg1
    · rintro hp hc b rfl
      obtain ⟨mm, hmm, -⟩ := lifeLineMsg_ok supp
      have hc' : contains (held d (ans 1) 1).nodes 1 0 = false := by
        cases hx : contains (held d (ans 1) 1).nodes 1 0 with
        | false => rfl
        | true => exact absurd ((contains_iff _).1 hx) hc
      simp only [setupLifeLine, hp, if_true, hg1, hc', hmm, Bool.false_eq_true, if_false]
      rw [(ig_get supp a.1 1 r hm1 hr).2.2, if_pos rfl]
      unfold held
      rw [hg1]
      cases heard r 1 <;> rfl
  · refine ⟨(setNumGroups d n).keys, (setupLifeLine supp a.1 1 sent r).2.1, ?_, nodup_addGroups _ _ _ hd, ?_, ?_, ?_⟩
    · rw [p2]
    · intro g
      rw [← mem_eq, mem_setNumGroups]; rfl
    · rintro ⟨hp, hadv, hc⟩
      exact (C62_lifeline supp a.1 sent r).1 ⟨hp, _, p3 1 hadv, hc⟩
    · intro hn
      rw [(C62_lifeline supp a.1 sent r).2]
      rintro ⟨hp, grp, hg, hc⟩
      have hadv : advertised d n 1 := by
        rcases Classical.em (advertised d n 1) with h | h
        · exact h
        · rw [p4 1 h] at hg; cases hg
      rw [p3 1 hadv] at hg
      cases hg
      exact hn ⟨hp, hadv, hc⟩

/-- A node with three groups: one answers, one does not, one answers with a report for another group. -/
example : ∃ m a1, decode [0x85, 0x06, 0x03] = .ok m ∧ decode [0x85, 0x03, 0x01, 0x05, 0x00, 0x01, 0x07] = .ok a1 ∧
    numAttr m "supportedGroupings" = some 3 ∧ Orderly (.ok a1) ∧ heard (.ok a1) 1 = some ⟨5, [(1, none), (7, none)]⟩ ∧ heard (.ok a1) 3 = none ∧
    (interview (fun c => c == 0x5E) [(2, ⟨4, [(9, none)]⟩)] (.ok m) (fun g => if g = 2 then .error .timeout else .ok a1) (.ok true) (.error .timeout)) =
      ([(2, ⟨4, [(9, none)]⟩), (1, ⟨5, [(1, none), (7, none)]⟩), (3, ⟨0, []⟩)], [.askGroups, .ask false 2, .ask false 1, .ask false 3], .ok ()) := by
  refine ⟨_, _, rfl, rfl, by decide +kernel, Or.inr ⟨_, 5, [(1, none), (7, none)], rfl, by decide +kernel, by decide +kernel⟩, by decide +kernel, by decide +kernel,
    by decide +kernel⟩

end Props.Association
