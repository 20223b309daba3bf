"""Writes Model/ShippedNetworks.lean, Lemmas/ShippedCertificates.lean and Lemmas/ShippedChecked.lean: the networks in /repo/networks, and for each of them, forwards and
reversed, the linear combinations that `certified` checks.  The combinations are found here by Gaussian elimination; nothing depends on how."""
import os
from fractions import Fraction as Q
from math import gcd

SRC = '/repo/networks'
HERE = os.path.join(os.path.dirname(os.path.abspath(__file__)), '..', 'lean', 'Verif')


def read(path):
    net = []
    for line in open(path):
        line = line.strip()
        if not line or line.startswith('#'):
            continue
        v = [None if x == '-1' else int(x) for x in line.split()]
        net.append(((v[0], v[1]), (v[2], v[3])))
    return net


def ends(net):
    s = {}
    for i, o in net:
        for c in i:
            if c is not None:
                s[c] = s.get(c, 0) + 1
        for c in o:
            if c is not None:
                s[c] = s.get(c, 0) - 1
    (a,) = [c for c, k in s.items() if k > 0]
    (b,) = [c for c, k in s.items() if k < 0]
    return a, b, s[a], -s[b]


def reduce_row(row, pivot, v):
    f = row[0].get(v, 0)
    if f == 0:
        return row
    f = f / pivot[0][v]
    new = []
    for mine, theirs in zip(row, pivot):
        d = dict(mine)
        for k, q in theirs.items():
            d[k] = d.get(k, 0) - f * q
            if d[k] == 0:
                del d[k]
        new.append(d)
    return tuple(new)


def certify(net, a, b):
    """Variables: 3j what splitter j sends, 3j+1 and 3j+2 what arrives at its inputs."""
    colours = sorted({c for i, o in net for c in i + o if c is not None})
    made = {c: sorted({j for j, (_, o) in enumerate(net) if c in o}) for c in colours}
    slots = {c: [3 * j + 1 + k for j, (i, _) in enumerate(net) for k in (0, 1) if i[k] == c] for c in colours}
    facts = []
    for j, (i, o) in enumerate(net):
        e = {3 * j: Q(sum(c is not None for c in o))}
        for k in (0, 1):
            if i[k] is not None:
                e[3 * j + 1 + k] = Q(-1)
        facts.append((('node', j), e))
    for c in colours:
        if c not in (a, b):
            e = {}
            for j, (_, o) in enumerate(net):
                for x in o:
                    if x == c:
                        e[3 * j] = e.get(3 * j, 0) + Q(1)
            for s in slots[c]:
                e[s] = e.get(s, 0) - Q(1)
            facts.append((('colour', c), e))

    def attempt(stage):
        keep = {s for c in stage for s in slots[c]}
        pool = [(dict(e), {k: Q(1)}) for k, (_, e) in enumerate(facts)]
        pivots = []
        for v in sorted({v for r, _ in pool for v in r if v not in keep}):
            p = next((r for r in pool if r[0].get(v, 0) != 0), None)
            if p is None:
                continue
            pool = [reduce_row(r, p, v) for r in pool if r is not p]
            pivots = [(w, reduce_row(r, p, v)) for w, r in pivots] + [(v, p)]
        proofs = []
        for c in stage:
            for j in made[c]:
                for i in made[c]:
                    if i >= j:
                        continue
                    row = ({3 * i: Q(1), 3 * j: Q(-1)}, {})
                    for v, p in pivots:
                        row = reduce_row(row, p, v)
                    rest, mult = row[0], {k: -q for k, q in row[1].items()}
                    if any(v not in keep for v in rest):
                        return None
                    scale = 1
                    for q in list(rest.values()) + list(mult.values()):
                        scale = scale * q.denominator // gcd(scale, q.denominator)
                    swaps = []
                    for c2 in stage:
                        pos = [[k, int(q * scale)] for k, q in sorted(rest.items()) if q > 0 and k in slots[c2]]
                        neg = [[k, int(-q * scale)] for k, q in sorted(rest.items()) if q < 0 and k in slots[c2]]
                        if sum(t for _, t in pos) != sum(t for _, t in neg):
                            return None
                        while pos:
                            t = min(pos[0][1], neg[0][1])
                            swaps.append((t, pos[0][0], neg[0][0]))
                            for side in (pos, neg):
                                side[0][1] -= t
                                if side[0][1] == 0:
                                    side.pop(0)
                    if sum(t for t, _, _ in swaps) >= scale:
                        return None
                    proofs.append((i, j, scale, [(int(q * scale), facts[k][0]) for k, q in sorted(mult.items())], swaps))
        return stage, proofs

    known, stages = [], []
    while b not in known:
        todo = [c for c in colours if c != a and c not in known]
        tries = [[b]] + [[c] for c in todo if c != b] + [[c, d] for c in todo for d in todo if c < d]
        stage = next(filter(None, map(attempt, tries)))
        stages.append(stage)
        for c in stage[0]:
            known.append(c)
            for j in made[c][1:]:
                facts.append((('made', c, j, made[c][0]), {3 * j: Q(1), 3 * made[c][0]: Q(-1)}))
            for s in slots[c]:
                facts.append((('used', c, s, made[c][0]), {s: Q(1), 3 * made[c][0]: Q(-1)}))
    return stages


def slot(v):
    return f'{(v - 1) // 3} {"false" if v % 3 == 1 else "true"}'


def pair(v):
    return '(' + slot(v).replace(' ', ', ') + ')'


def fact(m, f):
    body = f'used {f[1]} {slot(f[2])} {f[3]}' if f[0] == 'used' else ' '.join(map(str, f))
    return f'({m}, .{body})'


def show(stages):
    out = []
    for cs, proofs in stages:
        ps = [f'    ⟨{i}, {j}, {scale}, [{", ".join(fact(m, f) for m, f in fs)}], '
              f'[{", ".join(f"({t}, {pair(p)}, {pair(q)})" for t, p, q in swaps)}]⟩' for i, j, scale, fs, swaps in proofs]
        out.append(f'  ({cs}, [' + ('\n' if ps else '') + ',\n'.join(ps) + '])')
    return '[\n' + ',\n'.join(out) + ']'


names = sorted(os.listdir(SRC))
with open(os.path.join(HERE, 'Model', 'ShippedNetworks.lean'), 'w') as f:
    f.write('''import Verif.Model.Network
/-!
# The networks that come with the program

Written by tools/gen_networks.py from the files in /repo/networks, character for character.
-/

namespace FSat

/-- A file in /repo/networks: its name is the number of inputs, an `x` and the number of outputs. -/
structure ShippedNetwork where
  inputs : Nat
  outputs : Nat
  text : String

''')
    for name in names:
        m, n = name.split('x')
        text = open(os.path.join(SRC, name), newline='').read().replace('\\', '\\\\').replace('"', '\\"').replace('\r', '\\r').replace('\n', '\\n')
        f.write(f'/-- networks/{name} -/\ndef net{name} : ShippedNetwork := ⟨{m}, {n}, "{text}"⟩\n\n')
    f.write('/-- /repo/networks: all files. -/\ndef shippedNetworks : List ShippedNetwork :=\n  [' + ', '.join(f'net{name}' for name in names) + ']\n\nend FSat\n')
with open(os.path.join(HERE, 'Lemmas', 'ShippedCertificates.lean'), 'w') as f:
    f.write('''import Verif.Lemmas.NetworkCheck
/-!
The linear combinations for the networks in /repo/networks, written by tools/gen_networks.py.  Nothing rests on this file but what
`certified` says of it.
-/

namespace FSat

''')
    for name in names:
        net = read(os.path.join(SRC, name))
        for suffix, x in (('', net), ('Back', [(o, i) for i, o in net])):
            a, b, _, _ = ends(x)
            f.write(f'def cert{name}{suffix} : List (List Int × List PairProof) := {show(certify(x, a, b))}\n\n')
    f.write('end FSat\n')
with open(os.path.join(HERE, 'Lemmas', 'ShippedChecked.lean'), 'w') as f:
    f.write('''import Verif.Model.ShippedNetworks
import Verif.Lemmas.ShippedCertificates
/-!
The checks of the networks in /repo/networks, written by tools/gen_networks.py.
-/

namespace FSat

/-- Everything that is to be checked of one network. -/
def checkShipped (e : ShippedNetwork) (forth back : List (List Int × List PairProof)) : Bool :=
  match openNetwork e.text.toList with
  | .error _ => false
  | .ok n =>
    match getInputOutputColours n with
    | .error _ => false
    | .ok ((a, p), (b, q)) =>
      p == (e.inputs : Int) && q == (e.outputs : Int) && (n.all fun k => k.outputs != 0 && Node.outputs (k.2, k.1) != 0) &&
      ((insOf n ++ outsOf n).all fun c => decide (0 ≤ c.getD 0)) &&
      certified n a b [] forth && certified (flipNetwork n) b a [] back

''')
    for name in names:
        f.write(f'theorem net{name}_ok : checkShipped net{name} cert{name} cert{name}Back = true := by decide +kernel\n\n')
    f.write('/-- All of them. -/\ntheorem shipped_ok : ∀ e ∈ shippedNetworks, ∃ forth back, checkShipped e forth back = true := by\n')
    f.write('  simp only [shippedNetworks, List.forall_mem_cons]\n  exact ⟨')
    f.write(',\n    '.join(f'⟨_, _, net{name}_ok⟩' for name in names) + ', by simp⟩\n\nend FSat\n')
