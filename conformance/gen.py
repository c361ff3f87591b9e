#!/usr/bin/env python3
"""Turns the test data in /repo/tests/data (and the curves of /repo/tests/crypto/curves.rs) into test cases for Verif.Conformance.

Usage: gen.py DIRECTORY.  Writes one file per group; a line is expected|command|arguments."""
import json, re, sys, os

REPO = '/repo/tests'
DATA = REPO + '/data'
OUT = sys.argv[1]
os.makedirs(OUT, exist_ok=True)

def load(path):
    return json.load(open(f'{DATA}/{path}'))

def write(name, lines):
    with open(f'{OUT}/{name}.txt', 'w') as f:
        for l in lines:
            f.write('|'.join(l) + '\n')
    print(name, len(lines))

def curves():
    res = {}
    for part in open(REPO + '/crypto/curves.rs').read().split('pub(crate) fn ')[1:]:
        name = part.split('(')[0]
        vals = re.findall(r'BigInt::from\((-?\d+)\)|from_hex\(\s*"([0-9A-Fa-f]+)"', part)
        vals = [a or b for a, b in vals]
        assert len(vals) == 6, (name, vals)
        res[name] = ','.join(vals + [re.search(r'cofactor: (\d+)', part).group(1)])
    res['secp256k1'] = 'secp256k1'
    return res
C = curves()
N = 0xfffffffffffffffffffffffffffffffebaaedce6af48a03bbfd25e8cd0364141

# SHA-3
lines = []
for bits in (224, 256, 384, 512):
    rows = [l.split('=')[1].strip() for l in open(f'{DATA}/crypto/sha3/xkcp/ShortMsgKAT_SHA3-{bits}.txt') if re.match('(Len|Msg|MD) = ', l)]
    for n, msg, md in zip(rows[0::3], rows[1::3], rows[2::3]):
        if int(n) % 8 == 0:
            lines.append((md.lower(), 'hash', f'sha3_{bits}', msg[:int(n) // 4].lower()))
write('sha3', lines)

# HMAC: the recorded tag is a prefix of the HMAC, or wrong.
import hmac as pyhmac
lines = []
for h in ('sha256', 'sha384', 'sha512', 'sha3_224', 'sha3_256', 'sha3_384', 'sha3_512'):
    for g in load(f'crypto/wycheproof/hmac_{h}_test.json')['testGroups']:
        for t in g['tests']:
            full = pyhmac.new(bytes.fromhex(t['key']), bytes.fromhex(t['msg']), h).hexdigest()
            assert (full[:g['tagSize'] // 4] == t['tag']) == (t['result'] == 'valid')
            lines.append((full, 'hmac', h, t['key'], t['msg']))
write('hmac', lines)

# ECDSA verification.  Encodings that are not decoded count as errors.
lines = []
for c, f, h in [('brainpool_p256r1', 'brainpoolP256r1_sha256', 'sha256'), ('brainpool_p320r1', 'brainpoolP320r1_sha384', 'sha384'),
                ('brainpool_p384r1', 'brainpoolP384r1_sha384', 'sha384'), ('brainpool_p512r1', 'brainpoolP512r1_sha512', 'sha512'),
                ('secp224r1', 'secp224r1_sha256', 'sha256'), ('secp224r1', 'secp224r1_sha512', 'sha512'),
                ('secp256k1', 'secp256k1_sha256', 'sha256'), ('secp256k1', 'secp256k1_sha512', 'sha512'),
                ('secp256r1', 'secp256r1_sha256', 'sha256'), ('secp256r1', 'secp256r1_sha512', 'sha512'),
                ('secp384r1', 'secp384r1_sha384', 'sha384'), ('secp384r1', 'secp384r1_sha512', 'sha512'),
                ('secp521r1', 'secp521r1_sha512', 'sha512')]:
    for g in load(f'crypto/wycheproof/ecdsa_{f}_p1363_test.json')['testGroups']:
        for t in g['tests']:
            lines.append((t['result'], 'verify', C[c], h, g['key']['uncompressed'], t['sig'], t['msg'], '-'))
# "valid" means true; "invalid" false or an error; "acceptable" an error (the lengths differ).
write('wycheproof', lines)

# Signing, verifying, recovery on secp256k1
d = load('crypto/secp256k1/noble-secp256k1/ecdsa.json')
lines = []
for v in d['valid']:
    if int(v['m'], 16) != 0:
        lines.append((v['signature'] + ' true true true', 'sign', 'secp256k1', 'sha256', v['d'], v['m'], 'low', 'strict', '-'))
for v in d['invalid']['sign']:
    lines.append(('error', 'sign', 'secp256k1', 'sha256', v['d'], v['m'], 'low', 'strict', '-'))
for v in d['invalid']['verify']:
    lines.append(('error', 'verify', 'secp256k1', 'none', v['Q'], v['signature'], v['m'], 'low' if v.get('strict') else '-'))
# tests/crypto/secp256k1_signing_verifying.rs
big = '%064x'
ok = ' true true true'
for h, s in [(N - 2, 'fbe907aac2bd7cd0ce3711f644235486367bdca4b87f19f76a7935fa00c6d1697f16095dd8cb6a4da57da25e3a3178665513e12c7b4dc52f2c212d250eef6407'),
             (N - 1, '0315f68838865553c4bd6fab5d27c7ebc72b94f1e2939a4f34d6954f998ef2d32464db52707d432135c48d6f37d18ee645d7a893a5505350e57b04300098ebe9'),
             (N, 'a0b37f8fba683cc68f6574cd43b39f0343a50008bf6ccea9d13231d9e7e2e1e4ee12372cf8dabd69d9b51403c23893260446a5aca818c9f55a1d5e8be63972ef'),
             (N + 1, '6673ffad2147741f04772b6f921f0ba6af0c1e77fc439e65c36dedf4092e8898b3e568e9ad1f52577fedf107fda18f5ebb8e5c220badf23532bf6fbcc67fb4b8'),
             (N + 2, '56166f3a4b7d34af3bcc6c8a92a8f3c40309db9f22d7c83f8c5b87b374fd8047348ebb966e4e4c5ab15c43277b857c2844e45958f79b1e511163ca560b2ab246'),
             (1, '6673ffad2147741f04772b6f921f0ba6af0c1e77fc439e65c36dedf4092e8898b3e568e9ad1f52577fedf107fda18f5ebb8e5c220badf23532bf6fbcc67fb4b8'),
             (0x06ef2b193b83b3d701f765f1db34672ab84897e1252343cc2197829af3a30456,
              '33a69cd2065432a30f3d1ce4eb0d59b8ab58c74f27c41a7fdb5696ad4e6108c9907f867d799087a2c09be72dbe9c2250a9335f31d94ab034a1f1f4927c021edf')]:
    lines.append((s + ok, 'sign', 'secp256k1', 'sha256', '01', big % h, '-', 'strict', '-'))
lines.append((lines[-2][0], 'sign', 'secp256k1', 'sha256', '01', big % 1 + '42', '-', '-', '-'))
lines.append(('e3d70248ea2fc771fc8d5e62d76b9cfd5402c96990333549eaadce1ae9f737eb5cfbdc7d1e0ec18cc9b57bbb18f0a57dc929ec3c4dfac9073c581705015f6a8a' + ok,
              'sign', 'secp256k1', 'sha256', '%064x' % int('2' * 77), 'f' * 32 + '20' * 16, 'low', 'strict', '-'))
x, y = 3252872872578928810725465493269682203671229454553002637820453004368632726370, 17482644437196207387910659778872952193236850502325156318830589868678978890912
r, s = 432420386565659656852420866390673177323, 115792089237316195423570985008687907852837564279074904382605163141518161494334
lines.append(('true', 'verify', 'secp256k1', 'none', '04%064x%064x' % (x, y), '%064x%064x' % (r, s),
              'bb5a52f42f9c9261ed4361f59422a1e30036e7c32b270c8807a419feca605023', '-'))
# RFC 6979, A.2.5 (tests/crypto/ecdsa_p256_signing_verifying.rs)
import hashlib
key = 'C9AFA9D845BA75166B5C215767B1D6934E50C3DB36E89B127B8A622B120F6721'
for h, s in [('sha256', 'efd48b2aacb6a8fd1140dd9cd45e81d69d2c877b56aaf991c34d0ea84eaf3716f7cb1c942d657c41d436c7a1b6e29f65f3e900dbb9aff4064dc4ab2f843acda8'),
             ('sha384', '0eafea039b20e9b42309fb1d89e213057cbf973dc0cfc8f129edddc800ef77194861f0491e6998b9455193e34e7b0d284ddd7149a74b95b9261f13abde940954'),
             ('sha512', '8496a60b5e9b47c825488827e0495b0e3fa109ec4568fd3f8d1097678eb97f002362ab1adbe2b8adf9cb9edab740ea6049c028114f2460f96554f61fae3302fe')]:
    lines.append((s + ok, 'sign', C['nist_p256'], h, key, hashlib.new(h, b'sample').hexdigest(), '-', '-', '-'))
write('signing', lines)

# Signing and recovery on the other curves: only the three answers are known.  With cofactor 8 a recovery id allows several keys
# (C23_several_violated), so the second answer is open on w25519, but for the case that the project tests.
lines = []
for i, (name, c) in enumerate(sorted(C.items())):
    for j in range(3):
        dd = hashlib.sha256(f'{name} key {j}'.encode()).hexdigest()[:24]
        m = hashlib.sha256(f'{name} message {j}'.encode()).hexdigest()
        for low in ('low', '-'):
            lines.append(('*' + (ok if name != 'w25519' else ' true * true'), 'sign', c, 'sha256', dd, m, low, '-', '-'))
for low in ('low', '-'):
    lines.append(('*' + ok, 'sign', C['w25519'], 'sha256', '01', '1000000000000000000000000000000014def9dea2f79cd65812631a5cf5d3ed', low, '-', '-'))
write('curves', lines)

# Keys and points
d = load('crypto/secp256k1/noble-secp256k1/points.json')['valid']
lines = []
for v in d['isPoint']:
    lines.append(('true' if v['expected'] else 'error', 'point', v['P']))
for v in d['pointCompress']:
    lines.append((v['expected'], 'compress', v['P'], 'true' if v['compress'] else 'false'))
for v in d['pointFromScalar']:
    lines.append((v['expected'], 'scalar', v['d']))
for v in d['pointAdd']:
    lines.append((v['expected'] or 'null', 'pointadd', v['P'], v['Q']))
for v in d['pointMultiply']:
    lines.append((v['expected'], 'multiply', v['P'], v['d']))
for l in open(f'{DATA}/crypto/secp256k1/noble-secp256k1/privates-2.txt'):
    a, b = l.strip().split(':')[:2]
    lines.append(('%064x' % int(b, 16), 'decimal', a))
write('keys', lines)

# Accounts
lines = []
for v in load('blockchain/ethereum/ethers.js/accounts.json'):
    if v.get('privateKey'):
        lines.append((v['checksumAddress'], 'address', v['privateKey'][2:]))
    lines.append((v['checksumAddress'], 'checksum', v['address']))
write('accounts', lines)

# Transactions
def gas(s):
    g = int(s, 16) if len(s) > 2 else 0
    return None if g >= 2**64 else str(g)
def even(s):
    return s if len(s) % 2 == 0 else '0x0' + s[2:]
lines = []
for v in load('blockchain/ethereum/ethers.js/transactions.json'):
    f = [v.get(k) for k in ('nonce', 'gasPrice', 'gasLimit', 'to', 'value', 'data')]
    if any(x is None for x in f) or gas(f[2]) is None:
        continue
    n = int(f[0], 16) if len(f[0]) > 2 else 0
    if n >= 2**64: n = 0
    args = (str(n), f[1], gas(f[2]), f[3], f[4], f[5][2:])
    lines.append((v['signedTransaction'][2:] + ' true', 'legacy', v['privateKey'][2:]) + args)
    lines.append((v['signedTransactionChainId5'][2:] + ' *', 'eip155', v['privateKey'][2:], '5') + args)
for v in load('blockchain/ethereum/ethers.js/typed-transactions.json'):
    t = v['tx']
    fees = ('gasPrice',) if t['type'] == 1 else ('maxPriorityFeePerGas', 'maxFeePerGas')
    f = [t.get(k) for k in ('chainId', 'nonce') + fees + ('gasLimit', 'to', 'value', 'data')]
    if any(x is None for x in f) or gas(t['gasLimit']) is None:
        continue
    acc = ';'.join(','.join([i['address']] + i['storageKeys']) for i in t.get('accessList') or [])
    lines.append((v['signed'][2:] + ' true', 'eip2930' if t['type'] == 1 else 'eip1559', v['key'][2:], str(t['chainId']), str(t['nonce']))
                 + tuple(even(t[k]) for k in fees) + (gas(t['gasLimit']), t['to'], t['value'], t['data'][2:], acc))
write('transactions', lines)

# RLP
def item(x):
    return '[' + ''.join(item(y) + ',' for y in x) + ']' if isinstance(x, list) else x[2:]
write('rlp', [(item(v['decoded']), 'rlp', v['encoded'][2:]) for v in load('blockchain/ethereum/ethers.js/rlp-coder.json')])
