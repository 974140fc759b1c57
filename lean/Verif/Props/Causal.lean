import Verif.Props.Judge
import Verif.Props.Api
import Verif.Proof.CausalText
/-!
# C69: an error depends only on the document up to the end of what it points at
-/
namespace Verif.Props
open Verif Verif.Model Verif.Spec Verif.Proof Verif.Proof.Demo

/-- **C69**: if `Decode` reports an error, its index is the index of the first byte of a value, a key or a closing bracket of the document, and if the document is changed in any way behind the byte after the end of that
value, key or bracket (and stays a JSON document), then decoding it with the same decoder and options, into any destination, reports the same error at the same index, unless it panics. For every decoder, new or used, of
any type. -/
theorem C69_prefix {x : Ext} {d : Decoder} (hm : MethodsJudge x d) {src : Bytes} {v : JVal} (hv : IsDoc src v) {o : Option Options} {m : Block} {r : DecodeRes} {e : Err}
    (h : decode x d src (.ok v) (some m) o = some r) (he : r.err = some e) :
    ∃ i z, (i, z) ∈ extents v ∧ r.errIndex = i ∧ ∀ (src' : Bytes) (v' : JVal) (m' : Block) (r' : DecodeRes), IsDoc src' v' → src'.take (z + 1) = src.take (z + 1) →
      decode x d src' (.ok v') (some m') o = some r' → r'.err = some e ∧ r'.errIndex = i := by
  obtain ⟨i, hi, hidx⟩ := C22_index_token h he
  obtain ⟨z, hz⟩ := Proof.Causal.starts_extents v i hi
  refine ⟨i, z, hz, hidx, fun src' v' m' r' hv' ht h' => ?_⟩
  obtain ⟨p, hp⟩ := Proof.Causal.ag_of hv hv' hz ht.symm
  exact Proof.Causal.decode_K hm hp h he hidx h'

/-- The document `[{},[],{}]`. -/
theorem demo_list1 : IsDoc b!"[{},[],{}]" (.arr 0 [.obj 1 [] 2, .arr 4 [] 5, .obj 7 [] 8] 9) := by
  refine ⟨[], b!"[{},[],{}]", [], rfl, (fun _ h => by cases h), (fun _ h => by cases h), b!"{},[],{}", rfl, rfl, rfl, ?_⟩
  refine .inr ⟨by simp, b!"{}", b!"[],{}", rfl, ⟨[], b!"{}", [], rfl, (fun _ h => by cases h), (fun _ h => by cases h), [], rfl, rfl, rfl, fun _ h => by cases h⟩, ?_⟩
  refine .inr ⟨by simp, b!"[]", b!"{}", rfl, ⟨[], b!"[]", [], rfl, (fun _ h => by cases h), (fun _ h => by cases h), [], rfl, rfl, rfl, fun _ h => by cases h⟩, ?_⟩
  exact .inl ⟨rfl, [], b!"{}", [], rfl, (fun _ h => by cases h), (fun _ h => by cases h), [], rfl, rfl, rfl, fun _ h => by cases h⟩

/-- The document `[{},[],[],[]]`. -/
theorem demo_list2 : IsDoc b!"[{},[],[],[]]" (.arr 0 [.obj 1 [] 2, .arr 4 [] 5, .arr 7 [] 8, .arr 10 [] 11] 12) := by
  refine ⟨[], b!"[{},[],[],[]]", [], rfl, (fun _ h => by cases h), (fun _ h => by cases h), b!"{},[],[],[]", rfl, rfl, rfl, ?_⟩
  refine .inr ⟨by simp, b!"{}", b!"[],[],[]", rfl, ⟨[], b!"{}", [], rfl, (fun _ h => by cases h), (fun _ h => by cases h), [], rfl, rfl, rfl, fun _ h => by cases h⟩, ?_⟩
  refine .inr ⟨by simp, b!"[]", b!"[],[]", rfl, ⟨[], b!"[]", [], rfl, (fun _ h => by cases h), (fun _ h => by cases h), [], rfl, rfl, rfl, fun _ h => by cases h⟩, ?_⟩
  refine .inr ⟨by simp, b!"[]", b!"[]", rfl, ⟨[], b!"[]", [], rfl, (fun _ h => by cases h), (fun _ h => by cases h), [], rfl, rfl, rfl, fun _ h => by cases h⟩, ?_⟩
  exact .inl ⟨rfl, [], b!"[]", [], rfl, (fun _ h => by cases h), (fun _ h => by cases h), [], rfl, rfl, rfl, fun _ h => by cases h⟩

/-- `[]struct{X int; Y string}`: `[{},[],{}]` fails at index 4, and so does `[{},[],[],[]]`, which has the same first seven bytes, with the same error,
into a nil slice and into a slice with contents. -/
example : ∃ r r', decode demoX (demoDec 5) b!"[{},[],{}]" (.ok (.arr 0 [.obj 1 [] 2, .arr 4 [] 5, .obj 7 [] 8] 9)) (some (zeros 24)) (some defaultOptions) = some r ∧ r.err = some .unexpectedValue ∧ r.errIndex = 4 ∧
    decode demoX (demoDec 5) b!"[{},[],[],[]]" (.ok (.arr 0 [.obj 1 [] 2, .arr 4 [] 5, .arr 7 [] 8, .arr 10 [] 11] 12)) (some (seg 24 (.slice 1 2 (seg 8 (.int 7) ++ zeros 40)))) (some defaultOptions) = some r' ∧
    r'.err = some .unexpectedValue ∧ r'.errIndex = 4 := by
  obtain ⟨r, h, he, hi⟩ : ∃ r, decode demoX (demoDec 5) b!"[{},[],{}]" (.ok (.arr 0 [.obj 1 [] 2, .arr 4 [] 5, .obj 7 [] 8] 9)) (some (zeros 24)) (some defaultOptions) = some r ∧ r.err = some .unexpectedValue ∧
      r.errIndex = 4 := ⟨_, rfl, rfl, rfl⟩
  obtain ⟨r', h'⟩ : ∃ r', decode demoX (demoDec 5) b!"[{},[],[],[]]" (.ok (.arr 0 [.obj 1 [] 2, .arr 4 [] 5, .arr 7 [] 8, .arr 10 [] 11] 12)) (some (seg 24 (.slice 1 2 (seg 8 (.int 7) ++ zeros 40))))
      (some defaultOptions) = some r' := ⟨_, rfl⟩
  obtain ⟨i, z, h1, h2, h3⟩ := C69_prefix (demo_judge _) demo_list1 h he
  rw [hi] at h2
  have hz : z = 6 := by
    simp only [extents, extentsL, extentsM, List.mem_cons, List.mem_append, Prod.mk.injEq, List.not_mem_nil] at h1
    have hi4 : i = 4 := by omega
    subst hi4
    simpa using h1
  subst hz
  obtain ⟨h4, h5⟩ := h3 _ _ _ _ demo_list2 rfl h'
  exact ⟨r, r', h, he, hi, h', h4, by omega⟩

end Verif.Props
