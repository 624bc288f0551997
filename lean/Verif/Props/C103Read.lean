import Verif.Lemmas.Forget
import Verif.Props.C28
import Verif.Props.C103

/-!
# C103 for documents

The same for the tags of the document, as they are read.
-/

namespace Go3mf

open Spec

theorem flushText_start {t : Str} {n : Name} {as : List Attr} : some (Event.start n as) ∉ flushText t := by
  unfold flushText
  split <;> simp

/-- The attributes read for a tag are those of a token that was written, with cleaned values and without those that have no
name. -/
theorem mem_readOps {d : Str} {n : Name} {as : List Attr} : ∀ {ops : List Op} {t : Str},
    some (Event.start n as) ∈ readOps d t ops → ∃ n' as' auto skip, Op.start n' as' auto skip ∈ ops ∧ as = readAttrs as'
  | [], t, h => absurd h flushText_start
  | .chars s :: ops, t, h => by
    obtain ⟨n', as', a, k, h1, h2⟩ := mem_readOps (ops := ops) h
    exact ⟨n', as', a, k, List.mem_cons_of_mem _ h1, h2⟩
  | .stop m :: ops, t, h => by
    rw [readOps] at h
    rcases List.mem_append.1 h with h | h
    · exact absurd h flushText_start
    · rcases List.mem_cons.1 h with h | h
      · simp at h
      · obtain ⟨n', as', a, k, h1, h2⟩ := mem_readOps (ops := ops) h
        exact ⟨n', as', a, k, List.mem_cons_of_mem _ h1, h2⟩
  | .start m bs auto skip :: ops, t, h => by
    rw [readOps] at h
    rcases List.mem_append.1 h with h | h
    · exact absurd h flushText_start
    · rcases List.mem_cons.1 h with h | h
      · simp only [Option.some.injEq, Event.start.injEq] at h
        exact ⟨m, bs, auto, skip, List.mem_cons_self, h.2⟩
      · rcases List.mem_append.1 h with h | h
        · split at h <;> simp at h
        · obtain ⟨n', as', a, k, h1, h2⟩ := mem_readOps (ops := ops) h
          exact ⟨n', as', a, k, List.mem_cons_of_mem _ h1, h2⟩

/-- **C103** (encoder.go:98-104): no tag of the document written for a model is read with two attributes of the same name. -/
theorem C103_read_partial (env : Env) {m : Model} (hw : Writable env m) (h : DistinctModel m) (n : Name) (as : List Attr)
    (he : some (Event.start n as) ∈ (lex .eof (.new (marshalModel m))).1) : (as.map (·.name)).Nodup := by
  unfold marshalModel at he
  rw [lex_marshal (writable_dom hw)] at he
  obtain ⟨n', as', a, k, h1, rfl⟩ := mem_readOps he
  have := C103_model_partial h 4 n' as' a k h1
  unfold readAttrs shown
  rw [List.map_map]
  exact this.sublist (List.filter_sublist.map _)

/-- If nothing is wrong with the name spaces, every tag is read, with the names of its attributes resolved. -/
theorem resolve_starts {e : LexErr} {n : Name} {as : List Attr} : ∀ {evs : List (Option Event)} {sc : Scopes},
    (resolveAll sc evs e).2 = .eof → some (Event.start n as) ∈ evs →
    ∃ (n' : Name) (f : Name → Name), some (Event.start n' (as.map fun a => ⟨f a.name, a.value⟩)) ∈ (resolveAll sc evs e).1
  | [], _, _, hm => nomatch hm
  | none :: evs, sc, h, hm => by
    simp only [resolveAll] at h ⊢
    obtain ⟨n', f, hf⟩ := resolve_starts (evs := evs) h (by simpa using hm)
    exact ⟨n', f, List.mem_cons_of_mem _ hf⟩
  | some (.chars t) :: evs, sc, h, hm => by
    simp only [resolveAll] at h ⊢
    obtain ⟨n', f, hf⟩ := resolve_starts (evs := evs) h (by simpa using hm)
    exact ⟨n', f, List.mem_cons_of_mem _ hf⟩
  | some (.start k bs) :: evs, sc, h, hm => by
    simp only [resolveAll] at h ⊢
    rcases List.mem_cons.1 hm with hm | hm
    · simp only [Option.some.injEq, Event.start.injEq] at hm
      obtain ⟨rfl, rfl⟩ := hm
      exact ⟨_, _, List.mem_cons_self⟩
    · obtain ⟨n', f, hf⟩ := resolve_starts (evs := evs) h hm
      exact ⟨n', f, List.mem_cons_of_mem _ hf⟩
  | some (.stop k) :: evs, [], h, hm => by simp [resolveAll] at h
  | some (.stop k) :: evs, (m, bs) :: sc, h, hm => by
    simp only [resolveAll] at h ⊢
    split at h
    · rename_i hr
      rw [if_pos hr]
      obtain ⟨n', f, hf⟩ := resolve_starts (evs := evs) h (by simpa using hm)
      exact ⟨n', f, List.mem_cons_of_mem _ hf⟩
    · simp at h

/-- **C103** (internal/xml/printer.go:61-79): no tag of the document written for a model has two attributes of the same name,
with prefixes as they are written.  This is the rule of XML 1.0. -/
theorem C103_tags_partial (env : Env) {m : Model} (hw : Writable env m) (h : DistinctModel m) (n : Name) (as : List Attr)
    (he : some (Event.start n as) ∈ (rawTags .eof (marshalModel m)).1) : (as.map (·.name)).Nodup := by
  have hl := C24_resolve .eof (marshalModel m)
  have hl2 : (lex .eof (.new (marshalModel m))).2 = .eof := by
    unfold marshalModel
    rw [lex_marshal (writable_dom hw)]
  rw [hl] at hl2
  obtain ⟨n', f, hf⟩ := resolve_starts hl2 he
  have := C103_read_partial env hw h n' _ (hl ▸ hf)
  rw [List.map_map] at this
  have e : (as.map ((fun x : Attr => x.name) ∘ fun a => (⟨f a.name, a.value⟩ : Attr))) = (as.map (·.name)).map f := by
    rw [List.map_map]; rfl
  rw [e] at this
  exact List.Nodup.of_map f this

theorem exModel_distinct : DistinctModel exModel := by
  have hn : DistinctAttrs [] := ⟨by decide, by decide⟩
  have ha : DistinctAttrs exAttrs := ⟨by decide +kernel, by decide +kernel⟩
  refine ⟨⟨hn, by decide +kernel, (fun _ h => nomatch h)⟩, ⟨hn, ?_, ?_⟩, (fun _ h => nomatch h), hn, ?_⟩
  · intro a h
    simp only [exModel, List.mem_singleton] at h
    subst h
    refine ⟨hn, fun b hb => ?_⟩
    simp only [List.mem_cons, List.not_mem_nil, or_false] at hb
    rcases hb with rfl | rfl <;> exact hn
  · intro o h
    simp only [exModel, List.mem_cons, List.not_mem_nil, or_false] at h
    rcases h with rfl | rfl
    · refine ⟨ha, hn, fun m hm => ?_, fun cs hc => nomatch hc⟩
      simp only [Option.some.injEq] at hm
      subst hm
      refine ⟨ha, hn, hn, (fun _ h => nomatch h), fun t ht => ?_⟩
      simp only [exMesh, List.mem_cons, List.not_mem_nil, or_false] at ht
      rcases ht with rfl | rfl <;> rfl
    · refine ⟨hn, hn, (fun m hm => nomatch hm), fun cs hc => ?_⟩
      simp only [Option.some.injEq] at hc
      subst hc
      refine ⟨hn, fun c h => ?_⟩
      simp only [List.mem_singleton] at h
      subst h
      exact hn
  · intro i h
    simp only [exModel, List.mem_singleton] at h
    subst h
    exact ⟨hn, hn⟩

example (n : Name) (as : List Attr) (he : some (Event.start n as) ∈ (lex .eof (.new (marshalModel exModel))).1) :
    (as.map (·.name)).Nodup := C103_read_partial exEnv exWritable exModel_distinct n as he

example (n : Name) (as : List Attr) (he : some (Event.start n as) ∈ (rawTags .eof (marshalModel exModel)).1) :
    (as.map (·.name)).Nodup := C103_tags_partial exEnv exWritable exModel_distinct n as he

end Go3mf
