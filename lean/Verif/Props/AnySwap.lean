import Verif.Props.Alike
/-
C86: programs over the version agnostic classes that exchange objects, for IPv6.  `ip_network::swap` copies whole objects,
`ipv6_network::swap` leaves characters behind the scope ids, which nobody can see.  Little endian hosts.
-/
set_option autoImplicit false

namespace Ip
open Spec

theorem netSwap6_norm (c : Cfg) (n m : Net V6) (hn : NetOk6 c n) (hm : NetOk6 c m) :
    ∃ r, (fam6 c).netSwap n m = .ok r ∧ mapNet V6.norm r.1 = mapNet V6.norm m ∧ mapNet V6.norm r.2 = mapNet V6.norm n := by
  have key : ∀ a b : V6, a.WF c.M → b.WF c.M → ∃ r, v6Swap a b = .ok r ∧ r.1.norm = b.norm ∧ r.2.norm = a.norm := by
    intro a b ha hb
    obtain ⟨x, y, h1, h2, h3, h4, h5, h6, h7⟩ := C53_v6_swap c.M a b ha hb
    exact ⟨(x, y), h1, norm_of_alike c.M _ _ h2 hb ⟨h4, h6⟩, norm_of_alike c.M _ _ h3 ha ⟨h5, h7⟩⟩
  obtain ⟨x, x1, x2, x3⟩ := key _ _ hn.wf hm.wf
  obtain ⟨y, y1, y2, y3⟩ := key _ _ (mask6_wf c n hn) (mask6_wf c m hm)
  refine ⟨(⟨x.1, y.1, m.plen⟩, ⟨x.2, y.2, n.plen⟩), ?_, ?_, ?_⟩
  · show (v6Swap n.addr m.addr >>= _) = _
    rw [x1]
    show (v6Swap n.mask m.mask >>= _) = _
    rw [y1]
    rfl
  · simp only [mapNet, x2, y2]
  · simp only [mapNet, x3, y3]

/-- The stores of the two programs: the same up to leftovers. -/
structure SameStores (c : Cfg) (st' st : List (Obj V6 U128)) : Prop where
  norm : st'.map (mapObj V6.norm) = st.map (mapObj V6.norm)
  held : ∀ o ∈ st, HeldOk (fam6 c) (·.WF c.M) U128.val true o
  plain : ∀ o ∈ st', noExclusion o = true

theorem eval_same (c : Cfg) (st' st : List (Obj V6 U128)) (h : SameStores c st' st) (e : Expr U128) (he : bothHave e = true) (hd : noDefault e = true) :
    (anyEval c (st'.map as6) e = none ∧ (fam6 c).eval st e = none) ∨
    (∃ o' o, anyEval c (st'.map as6) e = some (.ok (as6 o')) ∧ (fam6 c).eval st e = some (.ok o) ∧ mapObj V6.norm o' = mapObj V6.norm o ∧
      noExclusion o' = true) ∨
    (∃ k v, anyEval c (st'.map as6) e = some (.err k v) ∧ (fam6 c).eval st e = some (.err k v)) ∨
    (anyEval c (st'.map as6) e = some .ub ∧ (fam6 c).eval st e = some .ub) := by
  rw [simEval6 c st' h.plain e he hd]
  have k := (normHom c).eval st' e
  rw [h.norm, (normHom c).eval st e] at k
  rcases h1 : (fam6 c).eval st' e with _ | r' <;> rcases h2 : (fam6 c).eval st e with _ | r <;> rw [h1, h2] at k <;>
    simp only [Option.map_none, Option.map_some, reduceCtorEq, Option.some.injEq] at k
  · exact .inl ⟨rfl, rfl⟩
  · rcases r' with o' | ⟨e', v'⟩ | _ <;> rcases r with o | ⟨e, v⟩ | _ <;> simp only [Res.image, Res.ok.injEq, Res.err.injEq, reduceCtorEq] at k
    · exact .inr (.inl ⟨o', o, rfl, rfl, k.symm, eval_noExclusion (fam6 c) st' h.plain e he hd o' h1⟩)
    · obtain ⟨rfl, rfl⟩ := k
      exact .inr (.inr (.inl ⟨_, _, rfl, rfl⟩))
    · exact .inr (.inr (.inr ⟨rfl, rfl⟩))

theorem mapObj_kind (o o' : Obj V6 U128) (h : mapObj V6.norm o' = mapObj V6.norm o) (n : Net V6) (ho : o = .net n) : ∃ m, o' = .net m := by
  subst ho
  cases o' <;> first | exact ⟨_, rfl⟩ | (simp [mapObj] at h)

theorem swapMap {T S : Type} (f : T → S) (st : List T) (i j : Nat) (a b : T) : ((st.set i a).set j b).map f = ((st.map f).set i (f a)).set j (f b) := by
  rw [List.map_set, List.map_set]

theorem exec_same (c : Cfg) (hc : c.le = true) (st' st : List (Obj V6 U128)) (h : SameStores c st' st) (s : Stmt U128) (hs : SharedStmt6Swap s) :
    (∃ t' t, anyExec c (st'.map as6) s = .ok (t'.map as6) ∧ (fam6 c).exec st s = .ok t ∧ SameStores c t' t) ∨
    (∃ k v, anyExec c (st'.map as6) s = .err k v ∧ (fam6 c).exec st s = .err k v) ∨
    (anyExec c (st'.map as6) s = .ub ∧ (fam6 c).exec st s = .ub) := by
  have held : ∀ t, (fam6 c).exec st s = .ok t → ∀ o ∈ t, HeldOk (fam6 c) (·.WF c.M) U128.val true o := fun t ht =>
    exec_ok (fam6Law c hc) (progLaw6 c hc) true st h.held s (fun _ => rfl) t ht
  cases s with
  | new e =>
    simp only [anyExec, Fam.exec] at held ⊢
    rcases eval_same c st' st h e hs.1 hs.2 with ⟨h1, h2⟩ | ⟨o', o, h1, h2, h3, h4⟩ | ⟨k, v, h1, h2⟩ | ⟨h1, h2⟩ <;> rw [h1, h2] <;> rw [h2] at held
    · exact .inl ⟨st', st, rfl, rfl, h⟩
    · refine .inl ⟨st' ++ [o'], st ++ [o], by simp [anyAfter], rfl, ⟨by simp [h.norm, h3], held _ rfl, ?_⟩⟩
      intro x hx
      rcases List.mem_append.1 hx with hx | hx
      · exact h.plain x hx
      · rw [List.mem_singleton.1 hx]; exact h4
    · exact .inl ⟨st', st, rfl, rfl, h⟩
    · exact .inr (.inr ⟨rfl, rfl⟩)
  | put i e =>
    simp only [anyExec, Fam.exec] at held ⊢
    rcases eval_same c st' st h e hs.1 hs.2 with ⟨h1, h2⟩ | ⟨o', o, h1, h2, h3, h4⟩ | ⟨k, v, h1, h2⟩ | ⟨h1, h2⟩ <;> rw [h1, h2] <;> rw [h2] at held
    · exact .inl ⟨st', st, rfl, rfl, h⟩
    · refine .inl ⟨st'.set i o', st.set i o, by simp [anyAfter, List.map_set], rfl, ⟨by rw [List.map_set, List.map_set, h.norm, h3], held _ rfl, ?_⟩⟩
      intro x hx
      rcases mem_set_of hx with hx | rfl
      · exact h.plain x hx
      · exact h4
    · exact .inl ⟨st', st, rfl, rfl, h⟩
    · exact .inr (.inr ⟨rfl, rfl⟩)
  | swap i j =>
    have get : ∀ k : Nat, st'[k]?.map (mapObj V6.norm) = st[k]?.map (mapObj V6.norm) := by
      intro k
      have := congrArg (·[k]?) h.norm
      simpa using this
    have plain : ∀ a b, (∃ k : Nat, st'[k]? = some a) → (∃ k : Nat, st'[k]? = some b) → ∀ x ∈ (st'.set i b).set j a, noExclusion x = true := by
      intro a b ⟨k, ha⟩ ⟨l, hb⟩ x hx
      rcases mem_set_of hx with hx | rfl
      · rcases mem_set_of hx with hx | rfl
        · exact h.plain x hx
        · exact h.plain _ (List.mem_of_getElem? hb)
      · exact h.plain _ (List.mem_of_getElem? ha)
    have gi := get i
    have gj := get j
    simp only [anyExec, Fam.exec, as6_get] at held ⊢
    rcases h1 : st[i]? with _ | a
    · rw [h1] at gi
      rcases h1' : st'[i]? with _ | a'
      · exact .inl ⟨st', st, rfl, rfl, h⟩
      · rw [h1'] at gi; cases gi
    rcases h1' : st'[i]? with _ | a'
    · rw [h1, h1'] at gi; cases gi
    rcases h2 : st[j]? with _ | b
    · rw [h2] at gj
      rcases h2' : st'[j]? with _ | b'
      · refine .inl ⟨st', st, ?_, ?_, h⟩
        · cases a' <;> rfl
        · cases a <;> rfl
      · rw [h2'] at gj; cases gj
    rcases h2' : st'[j]? with _ | b'
    · rw [h2, h2'] at gj; cases gj
    rw [h1, h1'] at gi
    rw [h2, h2'] at gj
    simp only [Option.map_some, Option.some.injEq] at gi gj
    rw [h1, h2] at held
    simp only [Option.map_some]
    have pl := plain a' b' ⟨i, h1'⟩ ⟨j, h2'⟩
    have main : (∀ n m, a = .net n → b = .net m → False) →
        (fam6 c).exec st (.swap i j) = .ok ((st.set i b).set j a) ∧ anyExec c (st'.map as6) (.swap i j) = .ok (((st'.set i b').set j a').map as6) := by
      intro hne
      simp only [anyExec, Fam.exec, as6_get, h1, h2, h1', h2', Option.map_some]
      constructor
      · cases a <;> cases b <;> first | trivial | rfl | exact (hne _ _ rfl rfl).elim
      · rw [swapMap]
        cases a' <;> first | rfl | (cases b' <;> rfl)
    by_cases hne : ∃ n m, a = Obj.net n ∧ b = Obj.net m
    · obtain ⟨n, m, rfl, rfl⟩ := hne
      obtain ⟨n', rfl⟩ := mapObj_kind _ _ gi n rfl
      obtain ⟨m', rfl⟩ := mapObj_kind _ _ gj m rfl
      obtain ⟨r, r1, r2, r3⟩ := netSwap6_norm c n m (h.held _ (List.mem_of_getElem? h1)) (h.held _ (List.mem_of_getElem? h2))
      simp only [r1, Res.ok_bind] at held ⊢
      refine .inl ⟨(st'.set i (.net m')).set j (.net n'), _, by rw [swapMap]; rfl, rfl, ⟨?_, held _ rfl, pl⟩⟩
      simp only [mapObj, Obj.net.injEq] at gi gj
      rw [swapMap, swapMap, h.norm]
      simp only [mapObj, r2, r3, gi, gj]
    · obtain ⟨e1, e2⟩ := main (fun n m ha hb => hne ⟨n, m, ha, hb⟩)
      simp only [anyExec, Fam.exec, as6_get, h1, h2, h1', h2', Option.map_some] at e1 e2
      refine .inl ⟨(st'.set i b').set j a', _, e2, e1, ⟨?_, held _ e1, pl⟩⟩
      rw [swapMap, swapMap, h.norm, gi, gj]

theorem run_same (c : Cfg) (hc : c.le = true) : ∀ (prog : List (Stmt U128)) (st' st : List (Obj V6 U128)), SameStores c st' st →
    (∀ s ∈ prog, SharedStmt6Swap s) →
    (∃ t' t, anyRun c prog (st'.map as6) = .ok (t'.map as6) ∧ (fam6 c).run prog st = .ok t ∧ SameStores c t' t) ∨
    (∃ k v, anyRun c prog (st'.map as6) = .err k v ∧ (fam6 c).run prog st = .err k v) ∨
    (anyRun c prog (st'.map as6) = .ub ∧ (fam6 c).run prog st = .ub)
  | [], st', st, h, _ => .inl ⟨st', st, rfl, rfl, h⟩
  | s :: rest, st', st, h, hp => by
    simp only [anyRun, Fam.run]
    rcases exec_same c hc st' st h s (hp s (List.mem_cons_self ..)) with ⟨t', t, h1, h2, h3⟩ | ⟨k, v, h1, h2⟩ | ⟨h1, h2⟩ <;> rw [h1, h2]
    · exact run_same c hc rest t' t h3 (fun s hs => hp s (List.mem_cons_of_mem _ hs))
    · exact .inr (.inl ⟨k, v, rfl, rfl⟩)
    · exact .inr (.inr ⟨rfl, rfl⟩)

/-- C86, IPv6, with exchanges: a program over the version agnostic classes that starts with IPv6 addresses does what the same
program over the IPv6 classes does: the same undefined behaviour, and objects with the same bytes, scope ids and members.
Without default objects, which are of IPv4, and without exclusions, whose iterators become such objects at the end. -/
theorem C86_v6_swap_partial (c : Cfg) (hc : c.le = true) (prog : List (Stmt U128)) (hp : ∀ s ∈ prog, SharedStmt6Swap s) (addrs : List V6)
    (h : ∀ a ∈ addrs, a.WF c.M) :
    match anyRun c prog (addrs.map fun a => .addr (.v6 a)), (fam6 c).run prog (addrs.map .addr) with
    | .ok x, .ok st => ∃ st', x = st'.map as6 ∧ List.Forall₂ AlikeObj st' st
    | .err e v, .err e' v' => e = e' ∧ v = v'
    | .ub, .ub => True
    | _, _ => False := by
  have k := run_same c hc prog (addrs.map .addr) (addrs.map .addr) ⟨rfl, start_ok true addrs h, by simp [noExclusion]⟩ hp
  rw [List.map_map] at k
  rw [show (fun a => AnyObj.addr (.v6 a)) = as6 ∘ Obj.addr from rfl]
  rcases k with ⟨t', t, h1, h2, h3⟩ | ⟨k, v, h1, h2⟩ | ⟨h1, h2⟩ <;> rw [h1, h2]
  · exact ⟨t', rfl, alikeAll_of_norm _ _ h3.norm⟩
  · exact ⟨rfl, rfl⟩
  · trivial

/-- A program that exchanges a network with scope id and one without, and looks at the first one's hosts. -/
def exExchange : List (Stmt U128) :=
  [.new (.fromAddress 0 128 true), .new (.fromAddress 1 64 false), .swap 2 3, .new (.hosts 2), .new (.network 3), .swap 0 5]

example := C86_v6_swap_partial exCfg rfl exExchange (by simp [exExchange, SharedStmt6Swap, bothHave, noDefault]) [exScoped, exPlain64.addr]
  (fun a ha => by
    rcases List.mem_cons.1 ha with rfl | ha
    · exact exScoped_ok
    · rw [List.mem_singleton.1 ha]; exact ⟨by decide, by unfold FStr.WF; decide, by decide⟩)

/-- It runs to its end, and the stores are not the same: characters are left. -/
example : ((fam6 exCfg).run exExchange [.addr exScoped, .addr exPlain64.addr]).image List.length = .ok 6 := by decide +kernel

end Ip
