import hashlib,struct
a=bytes.fromhex("d131dd02c5e6eec4693d9a0698aff95c2fcab58712467eab4004583eb8fb7f8955ad340609f4b30283e488832571415a085125e8f7cdc99fd91dbdf280373c5bd8823e3156348f5bae6dacd436c919c6dd53e2b487da03fd02396306d248cda0e99f33420f577ee8ce54b67080a80d1ec69821bcb6a8839396f9652b6ff72a70")
b=bytearray(a)
for i in (19,45,59,83,109,123): b[i]^=0x80
b=bytes(b)
print(len(a),hashlib.md5(a).hexdigest(),hashlib.md5(b).hexdigest())
w1="4d7a9c83 56cb927a b9d5a578 57a7a5ee de748a3c dcc366b3 b683a020 3b2a5d9f c69d71b3 f9e99198 d79f805e a63bb2e8 45dd8e31 97e31fe5 2794bf08 b9e8c3e9"
w2="4d7a9c83 d6cb927a 29d5a578 57a7a5ee de748a3c dcc366b3 b683a020 3b2a5d9f c69d71b3 f9e99198 d79f805e a63bb2e8 45dc8e31 97e31fe5 2794bf08 b9e8c3e9"
M1=b''.join(struct.pack('<I',int(x,16)) for x in w1.split()); M2=b''.join(struct.pack('<I',int(x,16)) for x in w2.split())
def md4(m):
    n=len(m); m+=b'\x80'; m+=b'\0'*((56-len(m))%64)+struct.pack('<Q',8*n)
    h=[0x67452301,0xefcdab89,0x98badcfe,0x10325476]; k=0xffffffff
    rol=lambda x,s:((x<<s)|(x&k)>>(32-s))&k
    for i in range(0,len(m),64):
        X=struct.unpack('<16I',m[i:i+64]);a,b,c,d=h
        for r,(f,K,o,s) in enumerate([(lambda x,y,z:x&y|~x&z,0,range(16),(3,7,11,19)),(lambda x,y,z:x&y|x&z|y&z,0x5a827999,[0,4,8,12,1,5,9,13,2,6,10,14,3,7,11,15],(3,5,9,13)),(lambda x,y,z:x^y^z,0x6ed9eba1,[0,8,4,12,2,10,6,14,1,9,5,13,3,11,7,15],(3,9,11,15))]):
            for j,q in enumerate(o):
                a=rol((a+(f(b,c,d)&k)+X[q]+K)&k,s[j%4]); a,b,c,d=d,a,b,c
        h=[(u+v)&k for u,v in zip(h,(a,b,c,d))]
    return struct.pack('<4I',*h).hex()
print(md4(b'abc'),md4(M1),md4(M2))

# SHA-1: M. Stevens, E. Bursztein, P. Karpman, A. Albertini, Y. Markov, 2017. The common beginning is 192 bytes long.
sha1Common = bytes.fromhex("255044462d312e330a25e2e3cfd30a0a0a312030206f626a0a3c3c2f57696474682032203020522f4865696768742033203020522f547970652034203020522f537562747970652035203020522f46696c7465722036203020522f436f6c6f7253706163652037203020522f4c656e6774682038203020522f42697473506572436f6d706f6e656e7420383e3e0a73747265616d0affd8fffe00245348412d3120697320646561642121212121852fec092339759c39b1a1c63c4c97e1fffe01")
sha1Left = bytes.fromhex("7f46dc93a6b67e013b029aaa1db2560b45ca67d688c7f84b8c4c791fe02b3df614f86db1690901c56b45c1530afedfb76038e972722fe7ad728f0e4904e046c230570fe9d41398abe12ef5bc942be33542a4802d98b5d70f2a332ec37fac3514e74ddc0f2cc1a874cd0c78305a21566461309789606bd0bf3f98cda8044629a1")
sha1Right = bytes.fromhex("7346dc9166b67e118f029ab621b2560ff9ca67cca8c7f85ba84c79030c2b3de218f86db3a90901d5df45c14f26fedfb3dc38e96ac22fe7bd728f0e45bce046d23c570feb141398bb552ef5a0a82be331fea48037b8b5d71f0e332edf93ac3500eb4ddc0decc1a864790c782c76215660dd309791d06bd0af3f98cda4bc4629b1")
