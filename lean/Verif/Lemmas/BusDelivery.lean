import Verif.Lemmas.Bus
import Verif.Props.Links
/-!
# Services on links: what one service sends, the others receive
-/
namespace SilKit.Bus
open SilKit.Links (MsgType)
open Spec

variable {σ α M ω : Type} {off : Nat → MsgType → String → Bool} {S : Service σ α M ω}

theorem ofSvc_prefix (i : Nat) {a b : List (Nat × M)} (h : a <+: b) : ofSvc i a <+: ofSvc i b := by
  obtain ⟨c, rfl⟩ := h
  rw [ofSvc_append]
  exact List.prefix_append _ _

/-- A service of another participant receives what is sent after the subscription has been accepted. -/
theorem remote_delivery (hS : Links.selfDeliveryEnforced S.ty = false) (hn : Links.Spec.NamedUniquely S.ty) (hh : Links.hasHistorySlot S.ty = false)
    (h : List (Event α)) {p i q j : Nat} {net : String} (hpq : p ≠ q) (hi : netOf (run off S h).1 p i = some net) (hj : netOf (run off S h).1 q j = some net)
    {a b : List (Out α M ω)} (e : trace off S h = a ++ .link (.accepted p q S.ty net) :: b) (hr : Out.link (.registered q S.ty net j) ∈ a) :
    recvs (p, i) (view q j (trace off S h)) <+: sends (view p i b) ∧
    (Drained off S h p q → recvs (p, i) (view q j (trace off S h)) = sends (view p i b)) := by
  obtain ⟨lh, el⟩ := run_links (off := off) (S := S) h
  have et : Links.Spec.trace off lh = linkPart (trace off S h) := by unfold Links.Spec.trace; rw [el]; rfl
  have es : Links.Spec.trace off lh = linkPart a ++ .accepted p q S.ty net :: linkPart b := by
    rw [et, e, linkPart_append]; rfl
  have key := Props.C27_late_subscriber_receives_last_value_then_all_partial (off := off) lh p q j S.ty net _ _ hn hpq es (mem_linkPart.2 hr)
  have hfh : Props.FromHistory off p S.ty net (linkPart a) = [] := by simp [Props.FromHistory, hh]
  rw [hfh, List.nil_append, et] at key
  have hb : b ⊆ trace off S h := by rw [e]; intro o ho; simp [ho]
  rw [← received_recvs hS h hj, ← published_sends hS h hi b hb]
  refine ⟨ofSvc_prefix i key.1, ?_⟩
  rintro ⟨h1, h2⟩
  rw [key.2 ⟨by rw [el]; exact h1, by rw [el]; exact h2⟩]

/-- Another service of the same participant receives what is sent after it has been created. -/
theorem local_delivery (hS : Links.selfDeliveryEnforced S.ty = false) (hf : Links.selfDeliveryForbidden S.ty = false)
    (h : List (Event α)) {p i j : Nat} {net : String} (hij : i ≠ j) (hi : netOf (run off S h).1 p i = some net) (hj : netOf (run off S h).1 p j = some net)
    {a b : List (Out α M ω)} (e : trace off S h = a ++ .link (.registered p S.ty net j) :: b) :
    recvs (p, i) (view p j (trace off S h)) = sends (view p i b) := by
  obtain ⟨lh, el⟩ := run_links (off := off) (S := S) h
  have et : Links.Spec.trace off lh = linkPart (trace off S h) := by unfold Links.Spec.trace; rw [el]; rfl
  have es : Links.Spec.trace off lh = linkPart a ++ .registered p S.ty net j :: linkPart b := by
    rw [et, e, linkPart_append]; rfl
  have hnew : Links.Out.registered p S.ty net j ∉ linkPart a := by
    obtain ⟨h1, h2, -, e2, e3⟩ := registered_boundary h a b e
    rw [e2]
    intro hm
    obtain ⟨-, st, e4⟩ := (run_Ok (off := off) hS h1).reg p S.ty net j hm
    rw [e3] at e4; cases e4
  have key := Props.C27_local_subscriber_receives_later_values_partial (off := off) lh p j S.ty net _ _ es hnew
  rw [et] at key
  have hb : b ⊆ trace off S h := by rw [e]; intro o ho; simp [ho]
  rw [← received_recvs hS h hj, ← published_sends hS h hi b hb, key]
  unfold ofSvc Links.Spec.published
  refine filterMap_filterMap_eq _ ?_
  intro o ho
  have ho' : o ∈ linkPart (trace off S h) := by
    rw [e, linkPart_append, List.mem_append]; right; exact List.mem_cons_of_mem _ ho
  cases o with
  | published p' svc' ty' net' v =>
      obtain ⟨-, h2, -⟩ := (run_Ok (off := off) hS h).pub p' svc' ty' net' v ho'
      simp only
      by_cases hv : svc' = i
      · subst hv
        have hsr : Links.SelfReceives S.ty j svc' := ⟨hf, Or.inr (Ne.symm hij)⟩
        simp [hsr]
      · have hv1 : ¬ v.1 = i := by rw [h2]; exact hv
        have e1 : ∀ (c : Prop) [Decidable c], ((if c then some v else none : Option (Nat × M)).bind fun v => if v.1 = i then some v.2 else none) = none := by
          intro c _; split <;> simp [hv1]
        rw [e1, e1]
  | _ => rfl

end SilKit.Bus
