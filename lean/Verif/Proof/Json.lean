import Verif.Spec.Json
import Verif.Proof.Unescape
/-!
# The tree of a JSON text satisfies the contract `Wf`
-/
namespace Verif.Proof.Json
open Verif.Model Verif.Spec

theorem text_mid {pre s post : Bytes} : text (pre ++ s ++ post) pre.length (pre.length + s.length) = s := by
  simp [text, List.append_assoc]

theorem text_at {src pre s post : Bytes} {a : Nat} (h : src = pre ++ s ++ post) (ha : a = pre.length) : text src a (a + s.length) = s := by
  subst h ha; exact text_mid

theorem content_denotes {raw : Bytes} (h : IsContent raw) : ∃ out, Denotes raw out := by
  induction h with
  | nil => exact ⟨_, .nil⟩
  | plain _ h _ _ ih => exact ⟨_, .plain h ih.choose_spec⟩
  | esc h _ ih => exact ⟨_, .esc h ih.choose_spec⟩
  | uni ha hb hc hd _ ih => exact ⟨_, .uni ha hb hc hd ih.choose_spec⟩

theorem string_inner {src pre raw post : Bytes} {a : Nat} (h : src = pre ++ (34 :: (raw ++ [34])) ++ post) (ha : a = pre.length) :
    inner src a (a + (34 :: (raw ++ [34])).length) = raw := by
  have := text_at (src := src) (pre := pre ++ [34]) (s := raw) (post := 34 :: post) (a := a + 1) (by simp [h]) (by simp [ha])
  refine Eq.trans ?_ this
  rw [inner]
  congr 1
  simp; omega

theorem string_wf {src pre s post : Bytes} {k : Nat × Nat} {a : Nat} (h : src = pre ++ s ++ post) (ha : a = pre.length) (hs : IsString k a s) :
    WfStr src k.1 k.2 ∧ text src k.1 k.2 = s := by
  obtain ⟨raw, rfl, hc, rfl⟩ := hs
  obtain ⟨out, ho⟩ := content_denotes hc
  refine ⟨⟨by simp, by subst h ha; simp, out, ?_⟩, text_at h ha⟩
  rw [string_inner h ha]; exact ho

theorem padded_at {P : Nat → Bytes → Prop} {src pre s post : Bytes} {a : Nat} (h : src = pre ++ s ++ post) (ha : a = pre.length) (hp : Padded P a s) :
    ∃ pre' t post', src = pre' ++ t ++ post' ∧ P pre'.length t := by
  obtain ⟨w, t, w', rfl, -, -, ht⟩ := hp
  exact ⟨pre ++ w, t, w' ++ post, by simp [h], by simpa [ha] using ht⟩

mutual
theorem json_wf {src : Bytes} : ∀ (v : JVal) (pre s post : Bytes) (a : Nat), src = pre ++ s ++ post → a = pre.length → IsJson v a s → Wf src v
  | .null i e, pre, s, post, a, h, ha, hj => by
    obtain ⟨hs, rfl, rfl⟩ := hj
    exact ⟨by omega, by subst h ha; simp, (text_at h ha).trans hs⟩
  | .bool b i e, pre, s, post, a, h, ha, hj => by
    obtain ⟨hs, rfl, rfl⟩ := hj
    exact ⟨by omega, by subst h ha; simp, (text_at h ha).trans hs⟩
  | .num b i e, pre, s, post, a, h, ha, hj => by
    obtain ⟨hs, hi, rfl, rfl⟩ := hj
    exact ⟨by omega, by subst h ha; simp, by rw [text_at h ha]; exact hs, by rw [text_at h ha]; exact hi⟩
  | .str i e, pre, s, post, a, h, ha, hj => (string_wf h ha hj).1
  | .arr i vs k, pre, s, post, a, h, ha, hj => by
    obtain ⟨body, rfl, rfl, rfl, hb⟩ := hj
    refine ⟨by omega, by subst h ha; simp; omega, by subst h ha; simp, ?_, elems_wf vs (pre ++ [91]) body (93 :: post) _ (by simp [h]) (by simp [ha]) hb⟩
    subst h ha
    rw [show pre ++ 91 :: (body ++ [93]) ++ post = (pre ++ 91 :: body) ++ 93 :: post by simp, List.getElem?_append_right (by simp; omega)]
    simp [show pre.length + 1 + body.length - (pre.length + (body.length + 1)) = 0 by omega]
  | .obj i ms k, pre, s, post, a, h, ha, hj => by
    obtain ⟨body, rfl, rfl, rfl, hb⟩ := hj
    refine ⟨by omega, by subst h ha; simp; omega, by subst h ha; simp, ?_, members_wf ms (pre ++ [123]) body (125 :: post) _ (by simp [h]) (by simp [ha]) hb⟩
    subst h ha
    rw [show pre ++ 123 :: (body ++ [125]) ++ post = (pre ++ 123 :: body) ++ 125 :: post by simp, List.getElem?_append_right (by simp; omega)]
    simp [show pre.length + 1 + body.length - (pre.length + (body.length + 1)) = 0 by omega]
theorem elems_wf {src : Bytes} : ∀ (vs : List JVal) (pre s post : Bytes) (a : Nat), src = pre ++ s ++ post → a = pre.length → IsElems vs a s → WfL src vs
  | [], _, _, _, _, _, _, _ => trivial
  | v :: vs, pre, s, post, a, h, ha, hj => by
    rcases hj with ⟨rfl, hp⟩ | ⟨-, s₁, s₂, rfl, hp, hr⟩
    · obtain ⟨p, t, q, h', ht⟩ := padded_at h ha hp
      exact ⟨json_wf v p t q _ h' rfl ht, trivial⟩
    · obtain ⟨p, t, q, h', ht⟩ := padded_at (src := src) (post := 44 :: s₂ ++ post) (by simp [h]) ha hp
      exact ⟨json_wf v p t q _ h' rfl ht, elems_wf vs (pre ++ s₁ ++ [44]) s₂ post _ (by simp [h]) (by simp [ha]; omega) hr⟩
theorem members_wf {src : Bytes} : ∀ (ms : List ((Nat × Nat) × JVal)) (pre s post : Bytes) (a : Nat), src = pre ++ s ++ post → a = pre.length → IsMembers ms a s → WfM src ms
  | [], _, _, _, _, _, _, _ => trivial
  | m :: ms, pre, s, post, a, h, ha, hj => by
    obtain ⟨key, val, rest, rfl, hk, hv, hr⟩ := hj
    obtain ⟨p, t, q, h', ht⟩ := padded_at (src := src) (post := 58 :: (val ++ rest) ++ post) (by simp [h]) ha hk
    obtain ⟨p', t', q', h'', ht'⟩ := padded_at (src := src) (pre := pre ++ key ++ [58]) (post := rest ++ post) (by simp [h]) (by simp [ha]; omega) hv
    refine ⟨(string_wf h' rfl ht).1, json_wf m.2 p' t' q' _ h'' rfl ht', ?_⟩
    rcases hr with ⟨rfl, -⟩ | ⟨-, s₂, rfl, hr⟩
    · trivial
    · exact members_wf ms (pre ++ key ++ [58] ++ val ++ [44]) s₂ post _ (by simp [h]) (by simp [ha]; omega) hr
end

theorem doc_wf {src : Bytes} {v : JVal} (h : IsDoc src v) : Wf src v := by
  obtain ⟨p, t, q, h', ht⟩ := padded_at (src := src) (pre := []) (post := []) (by simp) rfl h
  exact json_wf v p t q _ h' rfl ht

end Verif.Proof.Json
