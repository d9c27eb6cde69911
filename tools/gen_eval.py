#!/usr/bin/env python3
"""Generates lean/Verif/Torch/Eval.lean: one evaluation lemma per (operation, rank, axis)."""
import itertools, sys

V = ["n", "m", "p", "q", "r"]
I = ["i", "j", "k", "o", "u"]

out = []
def ftype(r): return " → ".join(["Nat"] * r + ["α"])
def ten(r, dims, body, idx=None):
    """tR dims (fun idx => body)"""
    if r == 0: return f"(t0 ({body}))"
    idx = idx or I[:r]
    return f"(t{r} {' '.join(paren(d) for d in dims)} fun {' '.join(idx)} => {body})"
def paren(d):
    return d if d.replace("_","").isalnum() else f"({d})"
def app(f, idx): return " ".join([f] + [paren(i) for i in idx]) if idx else f
def tin(r, dims, f): return f"(t{r} {' '.join(dims)} {f})" if r else f"(t0 {f})"
def binder(r, f="f"): return f"({f} : {ftype(r)})"
def vars_(dims):
    v = []
    for d in dims:
        if d != "1" and d not in v: v.append(d)
    return f"({' '.join(v)} : Nat) " if v else ""
def dimnames(p, r):
    return [(str(p), str(p)), (f"(-{r-p})", f"n{r-p}")]
def used(idx, body):
    """replace unused binders by _"""
    import re
    toks = set(re.findall(r"[A-Za-z_][A-Za-z_0-9']*", body))
    return [i if i in toks else "_" for i in idx]
def tenu(r, dims, body):
    return ten(r, dims, body, used(I[:r], body))

def thm(name, binders, lhs, rhs, proof, attr="@[tens] "):
    proof = proof.replace("\n  \n", "\n").replace("\n    \n", "\n"); import re; proof = re.sub("\n +\n", "\n", proof)
    out.append(f"{attr}theorem {name} {binders}:\n    {lhs} =\n      {rhs} := by\n  {proof}\n")

# unsqueeze
for r in range(0, 5):
    for p in range(0, r + 1):
        for d, dn in dimnames(p, r + 1):
            dims = V[:r]
            od = dims[:p] + ["1"] + dims[p:]
            oi = I[:r+1]
            src = oi[:p] + oi[p+1:]
            thm(f"unsqueeze_t{r}_{dn}", vars_(dims) + binder(r) + " ", f"unsqueeze {tin(r,dims,'f')} {d}",
                f".ok {tenu(r+1, od, app('f', src))}", f"tev{r+1}")
# squeeze
for r in range(1, 5):
    for p in range(0, r):
        for d, dn in dimnames(p, r):
            vs = V[:r-1]
            dims = vs[:p] + ["1"] + vs[p:]
            oi = I[:r-1]
            src = oi[:p] + ["0"] + oi[p:]
            thm(f"squeeze_t{r}_{dn}", vars_(dims) + binder(r) + " ", f"squeeze {tin(r,dims,'f')} {d}",
                f".ok {tenu(r-1, vs, app('f', src))}", f"tev{r-1}")
# flip
for r in range(1, 6):
    for p in range(0, r):
        for d, dn in dimnames(p, r):
            dims = V[:r]; src = I[:r]; src = src[:p] + [f"{dims[p]} - 1 - {src[p]}"] + src[p+1:]
            thm(f"flip_t{r}_{dn}", vars_(dims) + binder(r) + " ", f"flip {tin(r,dims,'f')} {d}",
                f".ok {tenu(r, dims, app('f', src))}", f"tev{r}")
# roll by -1
for r in range(3, 5):
    for d, dn, p in [("(-3)", "n3", r-3)]:
        dims = V[:r]; src = I[:r]; src = src[:p] + [f"({src[p]} + 1) % {dims[p]}"] + src[p+1:]
        thm(f"rollNeg1_t{r}_{dn}", vars_(dims) + binder(r) + " ", f"rollNeg1 {tin(r,dims,'f')} {d}",
            f".ok {tenu(r, dims, app('f', src))}",
            f"tev_list\n  refine congrArg Except.ok (ext{r} rfl rfl ?_)\n  intro {' '.join(I[:r])} {' '.join('h'+x for x in I[:r])}\n"
            f"  have := Nat.mod_lt ({I[p]} + 1) (show {dims[p]} > 0 by omega)\n  tev_core")
# slice
for r in range(1, 6):
    for p in range(0, r):
        for d, dn in dimnames(p, r):
            dims = V[:r]; src = I[:r]
            src = src[:p] + [f"{src[p]} + pyStart {dims[p]} s"] + src[p+1:]
            od = dims[:p] + [f"pyStop {dims[p]} e - pyStart {dims[p]} s"] + dims[p+1:]
            thm(f"slice_t{r}_{dn}", vars_(dims) + binder(r) + " (s e : Option Int) ", f"slice {tin(r,dims,'f')} {d} s e",
                f".ok {tenu(r, od, app('f', src))}", f"have := pyStop_le {dims[p]} e\n  tev{r}")
# select
for r in range(1, 6):
    for p in range(0, r):
        for d, dn in dimnames(p, r):
            vs = V[:r]; oi = I[:r-1]
            for (ix, nm, val, hyp, bnd) in [("0", "0", "0", f"(h : 0 < {vs[p]}) ", ""), ("(-1)", "last", f"{vs[p]} - 1", f"(h : 0 < {vs[p]}) ", ""),
                                       ("(c : Int)", "nat", "c", f"(h : c < {vs[p]}) ", "(c : Nat) ")]:
                src = oi[:p] + [val] + oi[p:]
                od = vs[:p] + vs[p+1:]
                thm(f"select_t{r}_{dn}_{nm}", vars_(vs) + binder(r) + " " + bnd + hyp, f"select {tin(r,vs,'f')} {d} {ix}",
                    f".ok {tenu(r-1, od, app('f', src))}", f"tev_sel_{nm}\n  tevg{r-1}")
            thm(f"select_t{r}_{dn}_idx", vars_(vs) + binder(r) + f" (c : Int) (h : -({vs[p]} : Int) ≤ c ∧ c < {vs[p]}) ", f"select {tin(r,vs,'f')} {d} c",
                f".ok {tenu(r-1, od, app('f', oi[:p] + [f'nidx {vs[p]} c'] + oi[p:]))}",
                f"rw [select_norm (p := {p}) (n := {vs[p]}) (by rfl) (by rfl) h, select_t{r}_{dn}_nat _ _ _ (nidx_lt h)]".replace("_ _ _", "_ "*(r+2)), attr="")
# unbind
for r in range(1, 6):
    for p in range(0, r):
        for d, dn in dimnames(p, r):
            vs = V[:r]; oi = I[:r-1]; src = oi[:p] + ["c"] + oi[p:]; od = vs[:p] + vs[p+1:]
            thm(f"unbind_t{r}_{dn}", vars_(vs) + binder(r) + " ", f"unbind {tin(r,vs,'f')} {d}",
                f".ok ((List.range {vs[p]}).map fun c => {tenu(r-1, od, app('f', src))})",
                f"tev_list\n  refine congrArg Except.ok (List.map_congr_left fun c hc => ?_)\n  simp only [List.mem_range] at hc\n  tevc{r-1}")
# stack of equally shaped tensors
for r in range(0, 5):
    for p in range(0, r + 1):
        for d, dn in dimnames(p, r + 1):
            vs = V[:r]; od = vs[:p] + ["c"] + vs[p:]
            oi = I[:r+1]; src = [oi[p]] + oi[:p] + oi[p+1:]
            thm(f"stack_t{r}_{dn}", vars_(vs) + f"(c : Nat) (f : Nat → {ftype(r)}) (hc : 0 < c) ",
                f"stack ((List.range c).map fun t => {tin(r, vs, '(f t)')}) {d}",
                f".ok {tenu(r+1, od, app('f', src))}",
                f"rw [stack_range_map _ (fun t => by rfl) hc]\n  tev{r+1}")
# cat2
for r in range(1, 6):
    for p in range(0, r):
        for d, dn in dimnames(p, r):
            vs = V[:r]; v1 = vs[:p] + ["c"] + vs[p+1:]; v2 = vs[:p] + ["c'"] + vs[p+1:]
            oi = I[:r]
            od = vs[:p] + ["c + c'"] + vs[p+1:]
            body = f"if {oi[p]} < c then {app('f', oi)} else {app('g', oi[:p] + [oi[p] + ' - c'] + oi[p+1:])}"
            rest = vs[:p] + vs[p+1:]
            thm(f"cat2_t{r}_{dn}", vars_(rest) + "(c c' : Nat) " + binder(r, "f") + " " + binder(r, "g") + " ",
                f"cat2 {tin(r,v1,'f')} {tin(r,v2,'g')} {d}", f".ok {tenu(r, od, body)}", f"tev_cat {r} {oi[p]}" if False else
                f"tev_list\n  rw [check_true (by simp)]\n  refine congrArg Except.ok (ext{r} rfl rfl ?_)\n  intro {' '.join(oi)} {' '.join('h'+x for x in oi)}\n  tev_core")
# padDim on the right / left by natural amounts, last axes
for r in range(1, 5):
    for p in range(0, r):
        for d, dn in dimnames(p, r):
            vs = V[:r]; oi = I[:r]
            od = vs[:p] + [f"{vs[p]} + c"] + vs[p+1:]
            intro = f"intro {' '.join(oi)} {' '.join('h'+x for x in oi)}"
            body = f"if {oi[p]} < {vs[p]} then {app('f', oi)} else v"
            thm(f"padDim_t{r}_{dn}_right", vars_(vs) + "(c : Nat) " + binder(r) + " (v : α) ", f"padDim {tin(r,vs,'f')} {d} 0 (c : Int) v",
                f".ok {tenu(r, od, body)}",
                f"tev_list\n  rw [check_true (by omega)]\n  refine congrArg Except.ok (ext{r} (by simp; omega) rfl ?_)\n  {intro}\n  tev_pad\n  split_ifs <;> first | tev_core | omega")
            body = f"if {oi[p]} < c then v else {app('f', oi[:p] + [oi[p] + ' - c'] + oi[p+1:])}"
            thm(f"padDim_t{r}_{dn}_left", vars_(vs) + "(c : Nat) " + binder(r) + " (v : α) ", f"padDim {tin(r,vs,'f')} {d} (c : Int) 0 v",
                f".ok {tenu(r, od, body)}",
                f"tev_list\n  rw [check_true (by omega)]\n  refine congrArg Except.ok (ext{r} (by simp; omega) rfl ?_)\n  {intro}\n  tev_pad\n  split_ifs <;> first | tev_core | omega")
# transpose
for r in range(2, 6):
    for (d0, d1, nm, p, q) in [("(-2)", "(-1)", "n2_n1", r-2, r-1), ("0", "1", "0_1", 0, 1)] + ([("1", "2", "1_2", 1, 2)] if r >= 3 else []):
        vs = V[:r]; od = vs[:]; od[p], od[q] = vs[q], vs[p]
        src = I[:r]; src[p], src[q] = src[q], src[p]
        thm(f"transpose_t{r}_{nm}", vars_(vs) + binder(r) + " ", f"transpose {tin(r,vs,'f')} {d0} {d1}",
            f".ok {tenu(r, od, app('f', src))}", f"tev{r}")
# map
for r in range(0, 6):
    vs = V[:r]; body = "g (" + app('f', I[:r]) + ")"
    thm(f"map_t{r}", vars_(vs) + "(g : α → α) " + binder(r) + " ", f"map g {tin(r,vs,'f')}", f"{tenu(r, vs, body)}", f"tevm{r}")
# full
for r in range(0, 6):
    vs = V[:r]
    thm(f"full_t{r}", vars_(vs) + "(v : α) ", f"full [{', '.join(vs)}] v", f"{tenu(r, vs, 'v')}", f"tevm{r}")
# flatten of two adjacent axes
for r in range(2, 6):
    for p in range(0, r-1):
        q = p + 1
        for (d0, d1, nm) in [(str(p), str(q), f"{p}_{q}"), (f"(-{r-p})", f"(-{r-q})", f"n{r-p}_n{r-q}")]:
            vs = V[:r]; od = vs[:p] + [f"{vs[p]} * {vs[q]}"] + vs[q+1:]
            oi = I[:r-1]; src = oi[:p] + [f"{oi[p]} / {vs[q]}", f"{oi[p]} % {vs[q]}"] + oi[p+1:]
            thm(f"flatten_t{r}_{nm}", vars_(vs) + binder(r) + " ", f"flatten {tin(r,vs,'f')} {d0} {d1}",
                f".ok {tenu(r-1, od, app('f', src))}",
                f"tev_list\n  rw [check_true (by decide)]\n  refine congrArg Except.ok (ext{r-1} (by simp) rfl ?_)\n  intro {' '.join(oi)} {' '.join('h'+x for x in oi)}\n"
                f"  have h1 := Nat.div_lt_of_lt_mul (Nat.mul_comm {vs[p]} {vs[q]} ▸ h{oi[p]})\n  have h2 := Nat.mod_lt {oi[p]} (Nat.pos_of_lt_mul_right' h{oi[p]})\n"
                f"  tev_flat\n  tev_core")
# flatten(2, -1)
thm("flatten_t3_2_n1", vars_(V[:3]) + binder(3) + " ", f"flatten {tin(3,V[:3],'f')} 2 (-1)", f".ok {tin(3,V[:3],'f')}",
    "rw [flatten_single (p := 2) (by rfl) (by rfl) (Nat.lt_of_sub_pos (by exact Nat.zero_lt_succ _))]")
thm("flatten_t4_2_n1", vars_(V[:4]) + binder(4) + " ", f"flatten {tin(4,V[:4],'f')} 2 (-1)", f".ok {tenu(3, ['n', 'm', 'p * q'], 'f i j (k / q) (k % q)')}",
    "exact flatten_t4_2_3 n m p q f")
# unflatten
for r in range(1, 5):
    for p in range(0, r):
        for d, dn in dimnames(p, r):
            vs = V[:r]; oi = I[:r+1]; src = oi[:p] + [f"{oi[p]} * c + {oi[p+1]}"] + oi[p+2:]
            pr = lambda: (f"tev_unfl\n  refine congrArg Except.ok (ext{r+1} rfl rfl ?_)\n  intro {' '.join(oi)} {' '.join('h'+x for x in oi)}\n"
                f"  have h1 : {oi[p]} * c + {oi[p+1]} < {vs[p]} := unflatten_bound' hd h{oi[p]} h{oi[p+1]}\n  tev_unfl2\n  tev_core")
            od = vs[:p] + [f"{vs[p]} / c", "c"] + vs[p+1:]
            thm(f"unflatten_t{r}_{dn}_m1_c", vars_(vs) + "(c : Nat) " + binder(r) + f" (hc : 0 < c) (hd : {vs[p]} % c = 0) ",
                f"unflatten {tin(r,vs,'f')} {d} [none, some c]", f".ok {tenu(r+1, od, app('f', src))}",
                pr().replace("tev_unfl\n", f"tev_list\n  rw [resolve_none_some hc hd]\n  tev_list\n",1))
            # product form
            v2 = vs[:p] + ["c' * c"] + vs[p+1:]
            od = vs[:p] + ["c'", "c"] + vs[p+1:]
            rest = vs[:p] + vs[p+1:]
            thm(f"unflatten_t{r}_{dn}_c_c", vars_(rest) + "(c' c : Nat) " + binder(r) + " ",
                f"unflatten (t{r} {' '.join(paren(x) for x in v2)} f) {d} [some c', some c]", f".ok {tenu(r+1, od, app('f', src))}",
                f"tev_list\n  rw [resolve_some_some]\n  tev_list\n  refine congrArg Except.ok (ext{r+1} rfl rfl ?_)\n  intro {' '.join(oi)} {' '.join('h'+x for x in oi)}\n"
                f"  have h1 : {oi[p]} * c + {oi[p+1]} < c' * c := unflatten_bound h{oi[p]} h{oi[p+1]}\n  tev_unfl2\n  tev_core")
# trivial unflatten / flatten of axis -3
for r in range(3, 6):
    vs = V[:r]; p = r - 3
    oi = I[:r]; hyp = ' '.join('h'+x for x in oi)
    thm(f"unflatten_t{r}_n3_c", vars_(vs) + binder(r) + " ", f"unflatten {tin(r,vs,'f')} (-3) (List.map some [{vs[p]}].reverse)", f".ok {tin(r,vs,'f')}",
        f"rw [unflatten_single (p := {p}) (by rfl) (by rfl) (Nat.lt_of_sub_pos (by exact Nat.zero_lt_succ _))]")
    thm(f"flatten_t{r}_{p}_n3", vars_(vs) + binder(r) + " ", f"flatten {tin(r,vs,'f')} (({r} - 3 : Nat) : Int) (-3)", f".ok {tin(r,vs,'f')}",
        f"rw [flatten_single (p := {p}) (by rfl) (by rfl) (Nat.lt_of_sub_pos (by exact Nat.zero_lt_succ _))]")
# unfold along the last axes
for r, p in [(1, 0), (2, 1), (3, 2), (2, 0), (3, 1), (3, 0), (4, 1)]:
    for d, dn in dimnames(p, r):
        vs = V[:r]; oi = I[:r+1]
        od = vs[:p] + [f"{vs[p]} - c + 1"] + vs[p+1:] + ["c"]
        src = oi[:p] + [f"{oi[p]} + {oi[r]}"] + oi[p+1:r]
        thm(f"unfold_t{r}_{dn}", vars_(vs) + "(c : Nat) " + binder(r) + f" (hc : c ≤ {vs[p]}) ", f"unfold {tin(r,vs,'f')} {d} c",
            f".ok {tenu(r+1, od, app('f', src))}",
            f"tev_list\n  rw [check_true hc]\n  refine congrArg Except.ok (ext{r+1} rfl rfl ?_)\n  intro {' '.join(oi)} {' '.join('h'+x for x in oi)}\n  tev_unfold\n  tev_core")

# broadcasting elementwise operations
def bzip(s1, s2):
    r1, r2 = len(s1), len(s2)
    R = max(r1, r2)
    a = ["1"] * (R - r1) + s1; b = ["1"] * (R - r2) + s2
    od = []
    for x, y in zip(a, b): od.append(x if x == y else (y if x == "1" else x))
    oi = I[:R]
    def src(s, rr): return [("0" if x == "1" else oi[R-rr+t]) for t, x in enumerate(s)]
    nm = lambda s: "".join(s) if s else "s"
    body = f"h ({app('f', src(s1,r1))}) ({app('g', src(s2,r2))})"
    thm(f"zipWith_{nm(s1)}_{nm(s2)}", vars_(s1 + s2) + "(h : α → α → α) " + binder(r1, "f") + " " + binder(r2, "g") + " ",
        f"zipWith h {tin(r1, s1, 'f')} {tin(r2, s2, 'g')}", f".ok {tenu(R, od, body)}", f"tev_zip{R}")
done = set()
def Z(a, b):
    for (x, y) in ((a, b), (b, a)):
        x = x.split(); y = y.split()
        if (tuple(x), tuple(y)) in done: continue
        done.add((tuple(x), tuple(y))); bzip(x, y)
for s in ["", "n", "n m", "n m p", "n m p q", "n m p q r"]: Z(s, s)
Z("n", ""); Z("n m", ""); Z("n m p", "")
Z("1", "n"); Z("n m", "m"); Z("n m", "1 m"); Z("n m", "n 1"); Z("n m", "1 1"); Z("n 1", "1 m"); Z("n 1", "m")
Z("n m p", "p"); Z("n m p", "m p"); Z("n m p", "n m 1"); Z("n m p", "n 1 p"); Z("n m p", "1 m p"); Z("n m p", "1 1 p")
Z("n m 1", "n 1 p"); Z("n m 1", "1 1 p"); Z("n m 1", "p")
Z("n m p q", "n m 1 q"); Z("n m p q", "n m p 1"); Z("n m p 1", "n m 1 q"); Z("n 1", "n"); Z("1 m", "n 1"); Z("n m 1", "m p"); Z("n m", "1"); Z("n m p", "1")

# matrix products
def bc(a, b):
    R = max(len(a), len(b)); a = ["1"]*(R-len(a)) + a; b = ["1"]*(R-len(b)) + b
    return [x if x == y else (y if x == "1" else x) for x, y in zip(a, b)]
def bsrc(s, R, oi): return [("0" if x == "1" else oi[R-len(s)+t]) for t, x in enumerate(s)]
sect2 = []
def thm2(*a, **k):
    n0 = len(out); thm(*a, **k); sect2.append(out.pop())
def matm(s1, s2):
    s1 = s1.split(); s2 = s2.split(); r1, r2 = len(s1), len(s2)
    nm = f"matmul_{''.join(s1)}_{''.join(s2)}"
    a = s1 if r1 > 1 else ["1"] + s1
    b = s2 if r2 > 1 else s2 + ["1"]
    bd = bc(a[:-2], b[:-2]); R = len(bd)
    od = bd + ([a[-2]] if r1 > 1 else []) + ([b[-1]] if r2 > 1 else [])
    oi = I[:len(od)]
    K = s1[-1]
    ii = ([oi[R]] if r1 > 1 else []); jj = ([oi[-1]] if r2 > 1 else [])
    fi = bsrc(a[:-2], R, oi) + (["0"] if a[-2] == "1" and r1 > 1 else ii) + ["w"]
    gi = bsrc(b[:-2], R, oi) + ["w"] + (["0"] if b[-1] == "1" and r2 > 1 else jj)
    if a[-2] == "1" and r1 > 1: fi = bsrc(a[:-2], R, oi) + ii + ["w"]
    if b[-1] == "1" and r2 > 1: gi = bsrc(b[:-2], R, oi) + ["w"] + jj
    body = f"∑ w ∈ Finset.range {K}, {app('f', fi)} * {app('g', gi)}"
    cd = bd + [a[-2], b[-1]]
    ci = I[:len(cd)]
    cf = bsrc(a[:-2], R, ci) + [ci[R], "w"]; cg = bsrc(b[:-2], R, ci) + ["w", ci[R+1]]
    hyp = ' '.join('h'+x for x in ci)
    cn = f"matmulCore_{''.join(a)}_{''.join(b)}"
    if cn not in done:
        done.add(cn)
        thm2(cn, vars_(a + b) + binder(len(a), "f") + " " + binder(len(b), "g") + " ", f"matmulCore {tin(len(a),a,'f')} {tin(len(b),b,'g')}",
          f".ok {tenu(len(cd), cd, f'∑ w ∈ Finset.range {K}, {app(chr(102), cf)} * {app(chr(103), cg)}')}",
          f"tev_mm\n  rw [check_true trivial]\n  refine congrArg Except.ok (ext{len(cd)} rfl rfl ?_)\n  intro {' '.join(ci)} {hyp}\n  tev_mmget\n  refine Finset.sum_congr rfl fun w hw => ?_\n  rw [Finset.mem_range] at hw\n  tev_mmel")
    steps = []
    steps.append("simp only [matmul, rank_t1, rank_t2, rank_t3, rank_t4, rank_t5]")
    steps.append("rw [check_true (by decide)]")
    fin = ["ok_bind", "pure_eq_ok", "if_true", "if_false", "OfNat.ofNat_ne_one", cn]
    if r1 == 1: fin.append(f"unsqueeze_t1_0, select_t{len(cd)}_n2_0 (h := Nat.one_pos)")
    L = len(cd) - (1 if r1 == 1 else 0)
    if r2 == 1: fin.append(f"unsqueeze_t1_n1, select_t{L}_n1_0 (h := Nat.one_pos)")
    steps.append("simp only [" + ", ".join(fin) + "]")
    thm2(nm, vars_(s1 + s2) + binder(r1, "f") + " " + binder(r2, "g") + " ", f"matmul {tin(r1,s1,'f')} {tin(r2,s2,'g')}",
        f".ok {tenu(len(od), od, body)}", "\n  ".join(steps))
for a, b in [("n m", "m p"), ("n m p", "p q"), ("n m p", "n p q"), ("m p", "n p q"), ("m p", "p"), ("n m p", "p"), ("p", "p"), ("m", "m p"),
             ("1 m p", "n p q"), ("n m p", "1 p q"), ("n m p q", "n m q r"), ("m p q", "n m q r"), ("n m p q", "q r"), ("1 m p q", "n m q r"), ("m", "n m p"), ("n m p q", "q"),
             ("1 n p q", "m 1 q r"), ("n 1 p q r", "n m 1 r s"), ("n m p q", "m q r")]:
    matm(a, b)
for r in range(1, 4):
    vs = V[:r]; oi = I[:r]
    body = f"∏ w ∈ Finset.range ({oi[r-1]} + 1), {app('f', oi[:-1] + ['w'])}"
    thm2(f"cumprod_t{r}_n1", vars_(vs) + binder(r) + " ", f"cumprod {tin(r,vs,'f')} (-1)", f".ok {tenu(r, vs, body)}",
      f"simp only [cumprod]\n  tev_list\n  refine congrArg Except.ok (ext{r} rfl rfl ?_)\n  intro {' '.join(oi)} {' '.join('h'+x for x in oi)}\n  tev_mmget\n  refine Finset.prod_congr rfl fun w hw => ?_\n  rw [Finset.mem_range] at hw\n  tev_core")
    body = f"∑ w ∈ Finset.range {vs[r-1]}, {app('f', oi[:-1] + ['w'])}"
    thm2(f"sum_t{r}_n1", vars_(vs) + binder(r) + " ", f"sum {tin(r,vs,'f')} (-1)", f".ok {tenu(r-1, vs[:-1], body)}",
      f"simp only [sum]\n  tev_list\n  refine congrArg Except.ok (ext{r-1} rfl rfl ?_)\n  {'intro' if r > 1 else ''} {' '.join(oi[:-1])} {' '.join('h'+x for x in oi[:-1])}\n  tev_mmget\n  refine Finset.sum_congr rfl fun w hw => ?_\n  rw [Finset.mem_range] at hw\n  tev_core")
def vecd(s1, s2):
    s1 = s1.split(); s2 = s2.split(); r1, r2 = len(s1), len(s2)
    bd = bc(s1, s2); R = len(bd); od = bd[:-1]; oi = I[:R-1] + ["w"]
    body = f"∑ w ∈ Finset.range {s1[-1]}, star ({app('f', bsrc(s1, R, oi))}) * {app('g', bsrc(s2, R, oi))}"
    hyp = ' '.join('h'+x for x in oi[:-1])
    thm2(f"vecdot_{''.join(s1)}_{''.join(s2)}", vars_(s1+s2) + "[StarRing α] " + binder(r1, "f") + " " + binder(r2, "g") + " ",
      f"vecdot {tin(r1,s1,'f')} {tin(r2,s2,'g')}", f".ok {tenu(R-1, od, body)}",
      f"tev_vd\n  rw [check_true (by decide)]\n  simp only [ok_bind, pure_eq_ok]\n  refine congrArg Except.ok (ext{R-1} rfl rfl ?_)\n  {'intro' if hyp else ''} {' '.join(oi[:-1])} {hyp}\n"
      f"  tev_mmget\n    refine Finset.sum_congr rfl fun w hw => ?_\n    rw [Finset.mem_range] at hw\n    tev_mmel".replace("\n    ", "\n  "))
for a, b in [("n", "n"), ("n m", "n m"), ("n m p", "n m p"), ("n m p", "n 1 p"), ("n m p", "1 m p"), ("n m p", "m p"), ("n m", "m"), ("n m p", "p"), ("n m p", "1 1 p"), ("m p", "n m p"), ("n 1 p", "n m p"), ("n 1 p q", "n m 1 q"), ("m p q", "n m 1 q"), ("n m p q", "n m 1 q")]:
    vecd(a, b)
# expand
sect3 = []
def thm3(*a, **k):
    thm(*a, **k); sect3.append(out.pop())
def expd(s1, tgt, sz):
    s1 = s1.split(); tgt = tgt.split(); R = len(tgt); oi = I[:R]
    sizes = "[" + ", ".join("none" if z == "-" else f"some {t}" for z, t in zip(sz.split(), tgt)) + "]"
    nm = "".join("X" if z == "-" else t for z, t in zip(sz.split(), tgt))
    hyp = ' '.join('h'+x for x in oi)
    thm3(f"expand_{''.join(s1) or 's'}_{nm}", vars_(s1 + tgt) + binder(len(s1)) + " ", f"expand {tin(len(s1), s1, 'f')} {sizes}",
        f".ok {tenu(R, tgt, app('f', [oi[R-len(s1)+t] if (tgt[R-len(s1)+t] == '1' or x != '1') else '0' for t, x in enumerate(s1)]))}",
        f"tev_exp\n  refine congrArg Except.ok (ext{R} rfl rfl ?_)\n  intro {' '.join(oi)} {hyp}\n  tev_zipd")
for a, b, c in [("", "1", "1"), ("1", "n", "n"), ("n 1", "n m", "- m"), ("n 1", "n 1", "n 1"), ("1 1", "n 1", "n 1"), ("1 m", "n m", "n m"),("1 m", "n m", "n -"), ("n m", "n m", "n m"),("n m", "n m", "n -"),
  ("1 m p", "n m p", "n - -"), ("n m p", "n m p", "n - -"), ("m p", "n m p", "n m p"), ("m p", "n m p", "n - -"), ("1 m p", "n m p", "n m p"), ("n m p", "n m p", "n m p"), ("m", "n m", "n m"), ("", "n", "n"), ("m", "n m", "n -"),("n","n","n"),
  ("m", "1 m", "1 m"), ("n m 1", "n m p", "n m p"), ("n 1 p", "n m p", "n m p"), ("p q", "n m p q", "n m p q"), ("q r", "n m p q r", "n m p q r")]:
    expd(a, b, c)

def hdr(imp, cls, doc): return f"""import Verif.Torch.{imp}

/-!
# Evaluation lemmas (generated by tools/gen_eval.py)

{doc}
-/

namespace Torch
namespace Tensor
variable {{α : Type}} [{cls} α]
set_option linter.unusedVariables false
set_option linter.unusedSimpArgs false

"""
d = sys.argv[1]
ft = "\nend Tensor\nend Torch\n"
open(d + "/Eval.lean", "w").write(hdr("Tac", "Zero", """For each tensor operation, rank and axis used in the model: the operation applied to a canonical tensor
`tR dims f` is again a canonical tensor, with an explicit element function.""") + "\n".join(out) + ft)
open(d + "/EvalExp.lean", "w").write(hdr("Eval", "Zero", "`expand` / `broadcast_to`.") + "\n".join(sect3) + ft)
open(d + "/EvalMul.lean", "w").write(hdr("EvalExp", "CommSemiring", "Matrix products and dot products.") + "\n".join(sect2) + ft)
