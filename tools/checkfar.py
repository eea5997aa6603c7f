"""Compare tn/english/data/number/cardinal_number_name.far with the grammar `names` of EnTn/Model.lean.

The file is read as data (OpenFst's binary format), nothing of the project is run.
1. Its strings of digits, determinized and minimized, are those of 0 and of the numerals of 1 to 15 digits
   without leading zero.
2. All numbers below 20000 and random ones of every length have exactly one output, the English name,
   at weight 0.
Usage: checkfar.py [path]
"""
import random, struct, sys

PATH = sys.argv[1] if len(sys.argv) > 1 else "/repo/tn/english/data/number/cardinal_number_name.far"
INF = float("inf")


def load(path):
    b = open(path, "rb").read()
    p = b.find(b"\xd6\xfd\xb2~") + 4

    def text():
        nonlocal p
        n = struct.unpack_from("<i", b, p)[0]
        p += 4 + n
        return b[p - n:p]

    text(), text()
    p += 8
    _, start, ns, _ = struct.unpack_from("<Qqqq", b, p)
    p += 32
    states = []
    for _ in range(ns):
        final, n = struct.unpack_from("<f", b, p)[0], struct.unpack_from("<q", b, p + 4)[0]
        p += 12
        states.append((final, [struct.unpack_from("<iifi", b, p + 16 * j) for j in range(n)]))
        p += 16 * n
    return start, states


start, st = load(PATH)
assert all(w == 0 for _, arcs in st for _, _, w, _ in arcs) and all(f in (0, INF) for f, _ in st)


def closure(S):
    S = set(S)
    work = list(S)
    while work:
        for i, _, _, n in st[work.pop()][1]:
            if i == 0 and n not in S:
                S.add(n)
                work.append(n)
    return frozenset(S)


def domain():
    """The set of digit strings as a canonical (minimal, numbered) automaton."""
    first = closure([start])
    ids, work, tr, fin = {first: 0}, [first], {}, {}
    while work:
        S = work.pop()
        fin[ids[S]] = any(st[x][0] != INF for x in S)
        for c in "0123456789":
            T = closure(n for x in S for i, _, _, n in st[x][1] if i == ord(c))
            if T:
                if T not in ids:
                    ids[T] = len(ids)
                    work.append(T)
                tr[ids[S], c] = ids[T]
    return tr, fin


def expected():
    """0 | [1-9][0-9]{0,14}"""
    tr, fin = {}, {0: False, 16: True}
    tr[0, "0"] = 16
    for c in "123456789":
        tr[0, c] = 1
    for k in range(1, 16):
        fin[k] = True
        if k < 15:
            for c in "0123456789":
                tr[k, c] = k + 1
    return tr, fin


def equivalent(a, b):
    seen, work = {(0, 0)}, [(0, 0)]
    while work:
        x, y = work.pop()
        if a[1].get(x, False) != b[1].get(y, False):
            return False
        for c in "0123456789":
            q = a[0].get((x, c), -1), b[0].get((y, c), -1)
            if q not in seen:
                seen.add(q)
                work.append(q)
    return True


def outputs(x):
    def eps(cur):
        work = [(s, o) for s, os in cur.items() for o in os]
        while work:
            s, o = work.pop()
            for i, oo, _, n in st[s][1]:
                no = o + (chr(oo) if oo else "")
                if i == 0 and no not in cur.setdefault(n, set()):
                    cur[n].add(no)
                    work.append((n, no))
        return cur
    cur = eps({start: {""}})
    for c in x:
        nx = {}
        for s, os in cur.items():
            for i, oo, _, n in st[s][1]:
                if i == ord(c):
                    nx.setdefault(n, set()).update(o + (chr(oo) if oo else "") for o in os)
        cur = eps(nx)
    return {o for s, os in cur.items() if st[s][0] != INF for o in os}


ONES = ("zero one two three four five six seven eight nine ten eleven twelve thirteen fourteen fifteen sixteen "
        "seventeen eighteen nineteen").split()
TENS = "_ _ twenty thirty forty fifty sixty seventy eighty ninety".split()
SCALES = ["", "thousand", "million", "billion", "trillion"]


def group(n):
    w = []
    if n >= 100:
        w += [ONES[n // 100], "hundred"]
        n %= 100
    if n >= 20:
        w.append(TENS[n // 10])
        n %= 10
    return w + ([ONES[n]] if n else [])


def name(n):
    if n == 0:
        return "zero"
    w, k = [], 0
    while n:
        if n % 1000:
            w = group(n % 1000) + ([SCALES[k]] if k else []) + w
        n, k = n // 1000, k + 1
    return " ".join(w)


assert equivalent(domain(), expected()), "domain"
random.seed(0)
sample = list(range(20000)) + [random.randrange(10 ** random.randint(1, 15)) for _ in range(5000)]
sample += [10 ** k * random.randint(1, 9) + random.choice([0, 0, 1, 10, 17, 100, 1000]) for k in range(15) for _ in range(40)]
sample = [n for n in sample if n < 10 ** 15]
bad = [n for n in sample if outputs(str(n)) != {name(n)}]
print("domain agrees; names compared:", len(sample), "different:", bad[:10])
sys.exit(1 if bad else 0)
