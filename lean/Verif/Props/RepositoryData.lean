import Verif.Props.RealCrypto

/-!
# The metadata of the repository, and tests on it

The files in `testutils/repository_data/repository`, and the tests of `metadata/metadata_test.go` and `metadata/metadata_api_test.go` on them. Hashes and signature checks are real (`Props/RealCrypto.lean`),
so these show that the bytes the model signs and hashes are those of the code. They prove none of the claims.
-/

namespace Tuf
open Tuf.Spec Tuf.Std

namespace RepoData

/-- `metadata/root.json`. -/
def rootData : Bytes := [
  b!"{\n",
  b!"\t\"signatures\": [\n",
  b!"\t\t{\n",
  b!"\t\t\t\"keyid\": \"74b58be26a6ff00ab2eec9b14da29038591a69c212223033f4efdf24489913f2\",\n",
  b!"\t\t\t\"sig\": \"d0283ac0653e324ce132e47a518f8a1539b59430efe5cdec58ec53f824bec28628b57dd5fb2452bde83fc8f5d11ab0b7350a9bbcbefc7acc6c447785545fa1e36f1352c9e20",
  b!"dd1ebcc3ab16a2a7ff702e32e481ceba88e0f348dc2cddd26ca577445d00c7194e8656d901fd2382c479555af93a64eef48cf79cdff6ecdcd7cb7\"\n",
  b!"\t\t}\n",
  b!"\t],\n",
  b!"\t\"signed\": {\n",
  b!"\t\t\"_type\": \"root\",\n",
  b!"\t\t\"consistent_snapshot\": true,\n",
  b!"\t\t\"expires\": \"2030-08-15T14:30:45.0000001Z\",\n",
  b!"\t\t\"keys\": {\n",
  b!"\t\t\t\"142919f8e933d7045abff3be450070057814da36331d7a22ccade8b35a9e3946\": {\n",
  b!"\t\t\t\t\"keytype\": \"rsa\",\n",
  b!"\t\t\t\t\"keyval\": {\n",
  b!"\t\t\t\t\t\"public\": \"-----BEGIN PUBLIC KEY-----\\nMIGeMA0GCSqGSIb3DQEBAQUAA4GMADCBiAKBgHXjYnWGuCIOh5T3XGmgG/RsXWHP\\nTbyu7OImP6O+uHg8hui8C1nY/mcJdFdxqgl1vKEc",
  b!"o/Nwebh2T8L6XbNfcgV9VVst\\nWpeCalZYWi55lZSLe9KixQIAyg15rNdhN9pcD3OuLmFvslgTx+dTbZ3ZoYMbcb4C\\n5yqvqzcOoCTQMeWbAgMBAAE=\\n-----END PUBLIC KEY-----\\n\"\n",
  b!"\t\t\t\t},\n",
  b!"\t\t\t\t\"scheme\": \"rsassa-pss-sha256\"\n",
  b!"\t\t\t},\n",
  b!"\t\t\t\"282612f348dcd7fe3f19e0f890e89fad48d45335deeb91deef92873934e6fe6d\": {\n",
  b!"\t\t\t\t\"keytype\": \"rsa\",\n",
  b!"\t\t\t\t\"keyval\": {\n",
  b!"\t\t\t\t\t\"public\": \"-----BEGIN PUBLIC KEY-----\\nMIGfMA0GCSqGSIb3DQEBAQUAA4GNADCBiQKBgQCjm6HPktvTGsygQ8Gvmu+zydTN\\ne1zqoxLxV7mVRbmsCI4kn7JTHc4fmWZwvo7f/Wbt",
  b!"o6Xj5HqGJFSlYIGZuTwZqPg3\\nw8wqv8cuPxbmsFSxMoHfzBBIuJe0FlwXFysojbdhrSUqNL84tlwTFXEhePYrpTNM\\nDn+9T55B0WJYT/VPxwIDAQAB\\n-----END PUBLIC KEY-----\\n\"\n",
  b!"\t\t\t\t},\n",
  b!"\t\t\t\t\"scheme\": \"rsassa-pss-sha256\"\n",
  b!"\t\t\t},\n",
  b!"\t\t\t\"74b58be26a6ff00ab2eec9b14da29038591a69c212223033f4efdf24489913f2\": {\n",
  b!"\t\t\t\t\"keytype\": \"rsa\",\n",
  b!"\t\t\t\t\"keyval\": {\n",
  b!"\t\t\t\t\t\"public\": \"-----BEGIN PUBLIC KEY-----\\nMIGfMA0GCSqGSIb3DQEBAQUAA4GNADCBiQKBgQDydf/VEpxBOCDoxpM6IVhq9i67\\nP9BiVv2zwZSUO/M0RTToAvFvNgDKXwtnp8LyjVk+",
  b!"+wMA1aceMa+pS7vYrKvPIJa7\\nWIT+mwy86/fIdnllJDMw5tmLr2mE3oBMxOhpEiD2tO+liGacklFNk6nHHorX9S91\\niqpdRVa3zJw5ALvLdwIDAQAB\\n-----END PUBLIC KEY-----\\n\"\n",
  b!"\t\t\t\t},\n",
  b!"\t\t\t\t\"scheme\": \"rsassa-pss-sha256\"\n",
  b!"\t\t\t},\n",
  b!"\t\t\t\"8a14f637b21578cc292a67899df0e46cc160d7fd56e9beae898adb666f4fd9d6\": {\n",
  b!"\t\t\t\t\"keytype\": \"rsa\",\n",
  b!"\t\t\t\t\"keyval\": {\n",
  b!"\t\t\t\t\t\"public\": \"-----BEGIN PUBLIC KEY-----\\nMIGfMA0GCSqGSIb3DQEBAQUAA4GNADCBiQKBgQCPQoHresXRRRGoinN3bNn+BI23\\nKolXdXLGqYkTvr9AjemUQJxbqmvZXHboQMAYw8Ou",
  b!"BrRNt5Fz20wjsrJwOBEU5U3n\\nHSJI4zYPGckYci0/0Eo2Kjws5BmIj38qgIfhsH4zyZ4FZZ+GLRn+W3i3wl6SfRMC\\n/HCg0DDwi75faC0vGQIDAQAB\\n-----END PUBLIC KEY-----\\n\"\n",
  b!"\t\t\t\t},\n",
  b!"\t\t\t\t\"scheme\": \"rsassa-pss-sha256\"\n",
  b!"\t\t\t}\n",
  b!"\t\t},\n",
  b!"\t\t\"roles\": {\n",
  b!"\t\t\t\"root\": {\n",
  b!"\t\t\t\t\"keyids\": [\n",
  b!"\t\t\t\t\t\"74b58be26a6ff00ab2eec9b14da29038591a69c212223033f4efdf24489913f2\"\n",
  b!"\t\t\t\t],\n",
  b!"\t\t\t\t\"threshold\": 1\n",
  b!"\t\t\t},\n",
  b!"\t\t\t\"snapshot\": {\n",
  b!"\t\t\t\t\"keyids\": [\n",
  b!"\t\t\t\t\t\"8a14f637b21578cc292a67899df0e46cc160d7fd56e9beae898adb666f4fd9d6\"\n",
  b!"\t\t\t\t],\n",
  b!"\t\t\t\t\"threshold\": 1\n",
  b!"\t\t\t},\n",
  b!"\t\t\t\"targets\": {\n",
  b!"\t\t\t\t\"keyids\": [\n",
  b!"\t\t\t\t\t\"282612f348dcd7fe3f19e0f890e89fad48d45335deeb91deef92873934e6fe6d\"\n",
  b!"\t\t\t\t],\n",
  b!"\t\t\t\t\"threshold\": 1\n",
  b!"\t\t\t},\n",
  b!"\t\t\t\"timestamp\": {\n",
  b!"\t\t\t\t\"keyids\": [\n",
  b!"\t\t\t\t\t\"142919f8e933d7045abff3be450070057814da36331d7a22ccade8b35a9e3946\"\n",
  b!"\t\t\t\t],\n",
  b!"\t\t\t\t\"threshold\": 1\n",
  b!"\t\t\t}\n",
  b!"\t\t},\n",
  b!"\t\t\"spec_version\": \"1.0.31\",\n",
  b!"\t\t\"version\": 1\n",
  b!"\t}\n",
  b!"}"].flatten

/-- `metadata/snapshot.json`. -/
def snapshotData : Bytes := [
  b!"{\n",
  b!"\t\"signatures\": [\n",
  b!"\t\t{\n",
  b!"\t\t\t\"keyid\": \"8a14f637b21578cc292a67899df0e46cc160d7fd56e9beae898adb666f4fd9d6\",\n",
  b!"\t\t\t\"sig\": \"3075fe9ef3008603eb0531500a93101b8f7eb52b07ce63fb71abaffd5eb20784bcab888abfca8041798b13dd35c6e18ff4a64d536161c4d5e7535f006edec3a46c71684a632",
  b!"269222da82d50bf380e20eb477032e45df0b44af9e1dc46f25cd72f9901b4fc41b90869649b6257a66188b61b83c7295baf16f113e9cc4d39b3a6\"\n",
  b!"\t\t}\n",
  b!"\t],\n",
  b!"\t\"signed\": {\n",
  b!"\t\t\"_type\": \"snapshot\",\n",
  b!"\t\t\"expires\": \"2030-08-15T14:30:45.0000001Z\",\n",
  b!"\t\t\"meta\": {\n",
  b!"\t\t\t\"role1.json\": {\n",
  b!"\t\t\t\t\"version\": 1\n",
  b!"\t\t\t},\n",
  b!"\t\t\t\"role2.json\": {\n",
  b!"\t\t\t\t\"version\": 1\n",
  b!"\t\t\t},\n",
  b!"\t\t\t\"targets.json\": {\n",
  b!"\t\t\t\t\"version\": 1\n",
  b!"\t\t\t}\n",
  b!"\t\t},\n",
  b!"\t\t\"spec_version\": \"1.0.31\",\n",
  b!"\t\t\"version\": 1\n",
  b!"\t}\n",
  b!"}"].flatten

/-- `metadata/timestamp.json`. -/
def timestampData : Bytes := [
  b!"{\n",
  b!"\t\"signatures\": [\n",
  b!"\t\t{\n",
  b!"\t\t\t\"keyid\": \"142919f8e933d7045abff3be450070057814da36331d7a22ccade8b35a9e3946\",\n",
  b!"\t\t\t\"sig\": \"639c9ce3dbb705265b5e9ad6d67fea2b38780c48ff7917e372adace8e50a7a2f054383d5960457a113059be521b8ce7e6d8a5787c600c4850b8c0ed1ae17a931a6bfe794476",
  b!"e7824c6f53df5232561e0a2e146b11dde7889b397c6f8136e2105bbb21b4b59b5addc032a0e755d97e531255f3b458d474184168541e542626e81\"\n",
  b!"\t\t}\n",
  b!"\t],\n",
  b!"\t\"signed\": {\n",
  b!"\t\t\"_type\": \"timestamp\",\n",
  b!"\t\t\"expires\": \"2030-08-15T14:30:45.0000001Z\",\n",
  b!"\t\t\"meta\": {\n",
  b!"\t\t\t\"snapshot.json\": {\n",
  b!"\t\t\t\t\"version\": 1\n",
  b!"\t\t\t}\n",
  b!"\t\t},\n",
  b!"\t\t\"spec_version\": \"1.0.31\",\n",
  b!"\t\t\"version\": 1\n",
  b!"\t}\n",
  b!"}"].flatten

/-- `metadata/targets.json`. -/
def targetsData : Bytes := [
  b!"{\n",
  b!"\t\"signatures\": [\n",
  b!"\t\t{\n",
  b!"\t\t\t\"keyid\": \"282612f348dcd7fe3f19e0f890e89fad48d45335deeb91deef92873934e6fe6d\",\n",
  b!"\t\t\t\"sig\": \"80cd125a4b128c9508df8bc6f71ad2ed9896a9e7afccd53fca9e7dbc2f02db69c3ae712234d3730c929d891fa035bdf059736e7debf62cbac6f0e8d22ab0c5de3b3e47b249e",
  b!"b0d41dea66d9fda9588893cde824a95614129263b6fed72fafb21cd7114e603fe3a30e3871e9eb5b5029e3e9a8353190f1bcb332a81ec211a93eb\"\n",
  b!"\t\t}\n",
  b!"\t],\n",
  b!"\t\"signed\": {\n",
  b!"\t\t\"_type\": \"targets\",\n",
  b!"\t\t\"delegations\": {\n",
  b!"\t\t\t\"keys\": {\n",
  b!"\t\t\t\t\"c8022fa1e9b9cb239a6b362bbdffa9649e61ad2cb699d2e4bc4fdf7930a0e64a\": {\n",
  b!"\t\t\t\t\t\"keyid_hash_algorithms\": [\n",
  b!"\t\t\t\t\t\t\"sha256\",\n",
  b!"\t\t\t\t\t\t\"sha512\"\n",
  b!"\t\t\t\t\t],\n",
  b!"\t\t\t\t\t\"keytype\": \"ed25519\",\n",
  b!"\t\t\t\t\t\"keyval\": {\n",
  b!"\t\t\t\t\t\t\"public\": \"fcf224e55fa226056adf113ef1eb3d55e308b75b321c8c8316999d8c4fd9e0d9\"\n",
  b!"\t\t\t\t\t},\n",
  b!"\t\t\t\t\t\"scheme\": \"ed25519\"\n",
  b!"\t\t\t\t}\n",
  b!"\t\t\t},\n",
  b!"\t\t\t\"roles\": [\n",
  b!"\t\t\t\t{\n",
  b!"\t\t\t\t\t\"keyids\": [\n",
  b!"\t\t\t\t\t\t\"c8022fa1e9b9cb239a6b362bbdffa9649e61ad2cb699d2e4bc4fdf7930a0e64a\"\n",
  b!"\t\t\t\t\t],\n",
  b!"\t\t\t\t\t\"name\": \"role1\",\n",
  b!"\t\t\t\t\t\"paths\": [\n",
  b!"\t\t\t\t\t\t\"file3.txt\"\n",
  b!"\t\t\t\t\t],\n",
  b!"\t\t\t\t\t\"terminating\": false,\n",
  b!"\t\t\t\t\t\"threshold\": 1\n",
  b!"\t\t\t\t}\n",
  b!"\t\t\t]\n",
  b!"\t\t},\n",
  b!"\t\t\"expires\": \"2030-08-15T14:30:45.0000001Z\",\n",
  b!"\t\t\"spec_version\": \"1.0.31\",\n",
  b!"\t\t\"targets\": {\n",
  b!"\t\t\t\"file1.txt\": {\n",
  b!"\t\t\t\t\"hashes\": {\n",
  b!"\t\t\t\t\t\"sha256\": \"65b8c67f51c993d898250f40aa57a317d854900b3a04895464313e48785440da\"\n",
  b!"\t\t\t\t},\n",
  b!"\t\t\t\t\"length\": 31\n",
  b!"\t\t\t}\n",
  b!"\t\t},\n",
  b!"\t\t\"version\": 1\n",
  b!"\t}\n",
  b!"}"].flatten

/-- `metadata/role1.json`. -/
def role1Data : Bytes := [
  b!"{\n",
  b!" \"signatures\": [\n",
  b!"  {\n",
  b!"   \"keyid\": \"c8022fa1e9b9cb239a6b362bbdffa9649e61ad2cb699d2e4bc4fdf7930a0e64a\",\n",
  b!"   \"sig\": \"9408b46569e622a46f1d35d9fa3c10e17a9285631ced4f2c9c2bba2c2842413fcb796db4e81d6f988fc056c21c407fdc3c10441592cf1e837e088f2e2dfd5403\"\n",
  b!"  }\n",
  b!" ],\n",
  b!" \"signed\": {\n",
  b!"  \"_type\": \"targets\",\n",
  b!"  \"delegations\": {\n",
  b!"   \"keys\": {\n",
  b!"    \"c8022fa1e9b9cb239a6b362bbdffa9649e61ad2cb699d2e4bc4fdf7930a0e64a\": {\n",
  b!"     \"keyid_hash_algorithms\": [\n",
  b!"      \"sha256\",\n",
  b!"      \"sha512\"\n",
  b!"     ],\n",
  b!"     \"keytype\": \"ed25519\",\n",
  b!"     \"keyval\": {\n",
  b!"      \"public\": \"fcf224e55fa226056adf113ef1eb3d55e308b75b321c8c8316999d8c4fd9e0d9\"\n",
  b!"     },\n",
  b!"     \"scheme\": \"ed25519\"\n",
  b!"    }\n",
  b!"   },\n",
  b!"   \"roles\": [\n",
  b!"    {\n",
  b!"     \"keyids\": [\n",
  b!"      \"c8022fa1e9b9cb239a6b362bbdffa9649e61ad2cb699d2e4bc4fdf7930a0e64a\"\n",
  b!"     ],\n",
  b!"     \"name\": \"role2\",\n",
  b!"     \"paths\": [],\n",
  b!"     \"terminating\": false,\n",
  b!"     \"threshold\": 1\n",
  b!"    }\n",
  b!"   ]\n",
  b!"  },\n",
  b!"  \"expires\": \"2030-01-01T00:00:00Z\",\n",
  b!"  \"spec_version\": \"1.0.0\",\n",
  b!"  \"targets\": {\n",
  b!"   \"file3.txt\": {\n",
  b!"    \"hashes\": {\n",
  b!"     \"sha256\": \"141f740f53781d1ca54b8a50af22cbf74e44c21a998fa2a8a05aaac2c002886b\",\n",
  b!"     \"sha512\": \"ef5beafa16041bcdd2937140afebd485296cd54f7348ecd5a4d035c09759608de467a7ac0eb58753d0242df873c305e8bffad2454aa48f44480f15efae1cacd0\"\n",
  b!"    },\n",
  b!"    \"length\": 28\n",
  b!"   }\n",
  b!"  },\n",
  b!"  \"version\": 1\n",
  b!" }\n",
  b!"}"].flatten

/-- `metadata/role2.json`. -/
def role2Data : Bytes := [
  b!"{\n",
  b!" \"signatures\": [\n",
  b!"  {\n",
  b!"   \"keyid\": \"c8022fa1e9b9cb239a6b362bbdffa9649e61ad2cb699d2e4bc4fdf7930a0e64a\",\n",
  b!"   \"sig\": \"75b196a224fd200e46e738b1216b3316c5384f61083872f8d14b8b0a378b2344e64b1a6f1a89a711206a66a0b199d65ac0e30fe15ddbc4de89fa8ff645f99403\"\n",
  b!"  }\n",
  b!" ],\n",
  b!" \"signed\": {\n",
  b!"  \"_type\": \"targets\",\n",
  b!"  \"expires\": \"2030-01-01T00:00:00Z\",\n",
  b!"  \"spec_version\": \"1.0.0\",\n",
  b!"  \"targets\": {},\n",
  b!"  \"version\": 1\n",
  b!" }\n",
  b!"}"].flatten

/-- `metadata/1.root.json`. -/
def root1Data : Bytes := [
  b!"{\n",
  b!"\t\"signatures\": [\n",
  b!"\t\t{\n",
  b!"\t\t\t\"keyid\": \"d5fa855fce82db75ec64283e828cc90517df5edf5cdc57e7958a890d6556f5b7\",\n",
  b!"\t\t\t\"sig\": \"1307990e6ba5ca145eb35e99182a9bec46531bc54ddf656a602c780fa0240dee\"\n",
  b!"\t\t}\n",
  b!"\t],\n",
  b!"\t\"signed\": {\n",
  b!"\t\t\"_type\": \"root\",\n",
  b!"\t\t\"consistent_snapshot\": true,\n",
  b!"\t\t\"expires\": \"2030-08-15T14:30:45.0000001Z\",\n",
  b!"\t\t\"keys\": {\n",
  b!"\t\t\t\"0a5842e65e9c8c428354f40708435de6793ac379a275effe40d6358be2de835c\": {\n",
  b!"\t\t\t\t\"keytype\": \"ed25519\",\n",
  b!"\t\t\t\t\"keyval\": {\n",
  b!"\t\t\t\t\t\"public\": \"4e10fe156f07e6f6e1f6fb1579105b7d3e62790b6a62dbf7727b91f82d2bc9db\"\n",
  b!"\t\t\t\t},\n",
  b!"\t\t\t\t\"scheme\": \"ed25519\"\n",
  b!"\t\t\t},\n",
  b!"\t\t\t\"409fb816e403e0c00646665eac21cb8adfab8e318272ca7589b2d1fc0bccb255\": {\n",
  b!"\t\t\t\t\"keytype\": \"ed25519\",\n",
  b!"\t\t\t\t\"keyval\": {\n",
  b!"\t\t\t\t\t\"public\": \"23e5dc4eb18d5c116e76a92b02e44a7d7279622574457050b85fb8fd9260422c\"\n",
  b!"\t\t\t\t},\n",
  b!"\t\t\t\t\"scheme\": \"ed25519\"\n",
  b!"\t\t\t},\n",
  b!"\t\t\t\"700464ea12f4cb5f06a7512c75b73c0b6eeb2cd42854b085eed5b3c993607cba\": {\n",
  b!"\t\t\t\t\"keytype\": \"ed25519\",\n",
  b!"\t\t\t\t\"keyval\": {\n",
  b!"\t\t\t\t\t\"public\": \"1603f99998ca46c35c238a2c1a2a015e0f32b38771e4fa5401348ce0a677d63f\"\n",
  b!"\t\t\t\t},\n",
  b!"\t\t\t\t\"scheme\": \"ed25519\"\n",
  b!"\t\t\t},\n",
  b!"\t\t\t\"d5fa855fce82db75ec64283e828cc90517df5edf5cdc57e7958a890d6556f5b7\": {\n",
  b!"\t\t\t\t\"keytype\": \"ed25519\",\n",
  b!"\t\t\t\t\"keyval\": {\n",
  b!"\t\t\t\t\t\"public\": \"17454b5e7a6594e7f00ceadda10d0267b94d0118b82f541f4f69f0d327c5a41a\"\n",
  b!"\t\t\t\t},\n",
  b!"\t\t\t\t\"scheme\": \"ed25519\"\n",
  b!"\t\t\t}\n",
  b!"\t\t},\n",
  b!"\t\t\"roles\": {\n",
  b!"\t\t\t\"root\": {\n",
  b!"\t\t\t\t\"keyids\": [\n",
  b!"\t\t\t\t\t\"d5fa855fce82db75ec64283e828cc90517df5edf5cdc57e7958a890d6556f5b7\"\n",
  b!"\t\t\t\t],\n",
  b!"\t\t\t\t\"threshold\": 1\n",
  b!"\t\t\t},\n",
  b!"\t\t\t\"snapshot\": {\n",
  b!"\t\t\t\t\"keyids\": [\n",
  b!"\t\t\t\t\t\"700464ea12f4cb5f06a7512c75b73c0b6eeb2cd42854b085eed5b3c993607cba\"\n",
  b!"\t\t\t\t],\n",
  b!"\t\t\t\t\"threshold\": 1\n",
  b!"\t\t\t},\n",
  b!"\t\t\t\"targets\": {\n",
  b!"\t\t\t\t\"keyids\": [\n",
  b!"\t\t\t\t\t\"409fb816e403e0c00646665eac21cb8adfab8e318272ca7589b2d1fc0bccb255\"\n",
  b!"\t\t\t\t],\n",
  b!"\t\t\t\t\"threshold\": 1\n",
  b!"\t\t\t},\n",
  b!"\t\t\t\"timestamp\": {\n",
  b!"\t\t\t\t\"keyids\": [\n",
  b!"\t\t\t\t\t\"0a5842e65e9c8c428354f40708435de6793ac379a275effe40d6358be2de835c\"\n",
  b!"\t\t\t\t],\n",
  b!"\t\t\t\t\"threshold\": 1\n",
  b!"\t\t\t}\n",
  b!"\t\t},\n",
  b!"\t\t\"spec_version\": \"1.0.31\",\n",
  b!"\t\t\"version\": 1,\n",
  b!"        \"test\": \"true\"\n",
  b!"\t}\n",
  b!"}"].flatten

/-- `targets/file1.txt`. -/
def file1 : Bytes := [
  b!"This is an example target file."].flatten

/-- `targets/file2.txt`. -/
def file2 : Bytes := [
  b!"This is an another example target file."].flatten

/-- `targets/file3.txt`. -/
def file3 : Bytes := [
  b!"This is role1's target file."].flatten

/-- `testRootBytes`, `metadata_test.go:26`. -/
def testRootBytes : Bytes := [
  b!"{\"signatures\":[{\"keyid\":\"roothash\",\"sig\":\"1307990e6ba5ca145eb35e99182a9bec46531bc54ddf656a602c780fa0240dee\"}],\"signed\":{\"_type\":\"root\",\"consistent_sna",
  b!"pshot\":true,\"expires\":\"2030-08-15T14:30:45.0000001Z\",\"keys\":{\"roothash\":{\"keytype\":\"ed25519\",\"keyval\":{\"public\":\"pubrootval\"},\"scheme\":\"ed25519\"},\"sna",
  b!"pshothash\":{\"keytype\":\"ed25519\",\"keyval\":{\"public\":\"pubsval\"},\"scheme\":\"ed25519\"},\"targetshash\":{\"keytype\":\"ed25519\",\"keyval\":{\"public\":\"pubtrval\"},\"s",
  b!"cheme\":\"ed25519\"},\"timestamphash\":{\"keytype\":\"ed25519\",\"keyval\":{\"public\":\"pubtmval\"},\"scheme\":\"ed25519\"}},\"roles\":{\"root\":{\"keyids\":[\"roothash\"],\"thr",
  b!"eshold\":1},\"snapshot\":{\"keyids\":[\"snapshothash\"],\"threshold\":1},\"targets\":{\"keyids\":[\"targetshash\"],\"threshold\":1},\"timestamp\":{\"keyids\":[\"timestampha",
  b!"sh\"],\"threshold\":1}},\"spec_version\":\"1.0.31\",\"version\":1}}"].flatten

def env : Env := Real.env

/-- The files, read. -/
def root : Res (Metadata RootType) := fromBytes env rootData
def snapshot : Res (Metadata SnapshotType) := fromBytes env snapshotData
def timestamp : Res (Metadata TimestampType) := fromBytes env timestampData
def targets : Res (Metadata TargetsType) := fromBytes env targetsData
def role1 : Res (Metadata TargetsType) := fromBytes env role1Data
def role2 : Res (Metadata TargetsType) := fromBytes env role2Data

def isOk {α : Type} : Res α → Bool
  | .ok _ => true
  | _ => false
def isValue {α : Type} : Res α → Bool
  | .err (.value _) => true
  | _ => false
def isUnsigned {α : Type} : Res α → Bool
  | .err (.unsignedMetadata _) => true
  | _ => false
def isMismatch {α : Type} : Res α → Bool
  | .err (.lengthOrHashMismatch _) => true
  | _ => false

/-- A test with all of its assertions. -/
def holds (t : Res (List Bool)) : Bool := match t with
  | .ok bs => bs.all id
  | _ => false

/-- What `FromBytes` reads is written as the same bytes. -/
def sameBytes (T : Type) [RoleType T] (pretty : Bool) (data : Bytes) : Bool :=
  match fromBytes (T := T) env data with
  | .ok m => toBytes env m pretty = .ok data
  | _ => false

/-- The keys of a map have the IDs that they are stored under. -/
def idsRight (keys : GoMap (Option Key)) : Bool := keys.entries.all (fun e => match e.2 with
  | some k => match Key.ID env { k with id := [] } with
    | .ok (id, _) => id == e.1
    | _ => false
  | none => false)

/-- `fixedExpire`, `metadata_test.go:30`. -/
def fixedExpire : Time := timeOf ⟨2030, 8, 15, 14, 30, 45, 100, 0⟩
def testField : Fields := [(b!"test", .str b!"true")]

/-! ## `metadata_test.go` -/

/-- `TestDefaultValuesRoot` and the three after it, lines 41-160. -/
def defaultValues : Bool :=
  let r := newRoot fixedExpire
  let s := newSnapshot fixedExpire
  let t := newTimestamp fixedExpire
  let g := newTargets fixedExpire
  r.signed.type == ROOT && r.signed.specVersion == b!"1.0.31" && r.signed.version == 1 && r.signed.consistentSnapshot && r.signatures.map List.length == some 0 && r.signed.keys.map List.length == some 0 &&
    [ROOT, SNAPSHOT, TARGETS, TIMESTAMP].all (fun role => match r.signed.roles.get? role with
      | some (some x) => x.threshold == 1 && x.keyIDs == some []
      | _ => false) &&
    s.signed.type == SNAPSHOT && s.signed.specVersion == b!"1.0.31" && s.signed.version == 1 && s.signed.metas.map (List.map (fun e => (e.1, e.2.map MetaFiles.version))) == some [(b!"targets.json", some 1)] &&
    t.signed.type == TIMESTAMP && t.signed.specVersion == b!"1.0.31" && t.signed.version == 1 && t.signed.metas.map (List.map (fun e => (e.1, e.2.map MetaFiles.version))) == some [(b!"snapshot.json", some 1)] &&
    g.signed.type == TARGETS && g.signed.specVersion == b!"1.0.31" && g.signed.version == 1 && g.signed.targets.map List.length == some 0 &&
    newTargetFile.length == 0 && newTargetFile.hashes.map List.length == some 0 && [(0, 1), (-1, 1), (1, 1), (2, 2)].all (fun p => (newMetaFile p.1).version == p.2)

/-- `TestIsDelegatedPath`, lines 199-275. -/
def delegatedPaths : Bool :=
  [(b!"targets/*.tgz", b!"targets/foo.tgz", true), (b!"targets/*.tgz", b!"targets/bar.tgz", true), (b!"targets/*.tgz", b!"targets/foo.txt", false),
    (b!"foo-version-?.tgz", b!"foo-version-2.tgz", true), (b!"foo-version-?.tgz", b!"foo-version-a.tgz", true), (b!"foo-version-?.tgz", b!"foo-version-alpha.tgz", false),
    (b!"*.tgz", b!"foo.tgz", true), (b!"*.tgz", b!"bar.tgz", true), (b!"*.tgz", b!"targets/foo.tgz", false), (b!"foo.tgz", b!"foo.tgz", true), (b!"foo.tgz", b!"foosy.tgz", false)].all
    (fun m => ({ paths := some [m.1] } : DelegatedRole).isDelegatedPath env m.2.1 == m.2.2)

/-- `TestUnrecognizedFieldRolesSigned`, lines 356-384. -/
def unrecognizedSigned : Bool :=
  let r := newRoot fixedExpire
  let g := newTargets fixedExpire
  let s := newSnapshot fixedExpire
  let t := newTimestamp fixedExpire
  decide (toBytes env { r with signed := { r.signed with unrec := testField } } false = .ok b!"{\"signatures\":[],\"signed\":{\"_type\":\"root\",\"consistent_snapshot\":true,\"expires\":\"2030-08-15T14:30:45.0000001Z\",\"keys\":{},\"roles\":{\"root\":{\"keyids\":[],\"threshold\":1},\"snapshot\":{\"keyids\":[],\"threshold\":1},\"targets\":{\"keyids\":[],\"threshold\":1},\"timestamp\":{\"keyids\":[],\"threshold\":1}},\"spec_version\":\"1.0.31\",\"test\":\"true\",\"version\":1}}") &&
    decide (toBytes env { g with signed := { g.signed with unrec := testField } } false = .ok b!"{\"signatures\":[],\"signed\":{\"_type\":\"targets\",\"expires\":\"2030-08-15T14:30:45.0000001Z\",\"spec_version\":\"1.0.31\",\"targets\":{},\"test\":\"true\",\"version\":1}}") &&
    decide (toBytes env { s with signed := { s.signed with unrec := testField } } false = .ok b!"{\"signatures\":[],\"signed\":{\"_type\":\"snapshot\",\"expires\":\"2030-08-15T14:30:45.0000001Z\",\"meta\":{\"targets.json\":{\"version\":1}},\"spec_version\":\"1.0.31\",\"test\":\"true\",\"version\":1}}") &&
    decide (toBytes env { t with signed := { t.signed with unrec := testField } } false = .ok b!"{\"signatures\":[],\"signed\":{\"_type\":\"timestamp\",\"expires\":\"2030-08-15T14:30:45.0000001Z\",\"meta\":{\"snapshot.json\":{\"version\":1}},\"spec_version\":\"1.0.31\",\"test\":\"true\",\"version\":1}}")

/-- `TestUnrecognizedFieldGenericMetadata`, lines 385-398. -/
def unrecognizedGeneric : Bool :=
  decide (toBytes env { newRoot fixedExpire with unrec := testField } false = .ok b!"{\"signatures\":[],\"signed\":{\"_type\":\"root\",\"consistent_snapshot\":true,\"expires\":\"2030-08-15T14:30:45.0000001Z\",\"keys\":{},\"roles\":{\"root\":{\"keyids\":[],\"threshold\":1},\"snapshot\":{\"keyids\":[],\"threshold\":1},\"targets\":{\"keyids\":[],\"threshold\":1},\"timestamp\":{\"keyids\":[],\"threshold\":1}},\"spec_version\":\"1.0.31\",\"version\":1},\"test\":\"true\"}")

/-- `TestTargetFilesCustomField`, lines 399-416. -/
def customField : Bool :=
  let g := newTargets fixedExpire
  decide (toBytes env { g with signed := { g.signed with targets := some [(b!"testTarget", some { newTargetFile with custom := some (.obj [(b!"test", .bool true)]) })] } } false = .ok b!"{\"signatures\":[],\"signed\":{\"_type\":\"targets\",\"expires\":\"2030-08-15T14:30:45.0000001Z\",\"spec_version\":\"1.0.31\",\"targets\":{\"testTarget\":{\"custom\":{\"test\":true},\"hashes\":{},\"length\":0}},\"version\":1}}")

/-- `TestFromBytes`, lines 418-462. -/
def fromBytesTest : Bool := holds do
  let r ← fromBytes (T := RootType) env testRootBytes
  let role (name id : Str) : Bool := match r.signed.roles.get? name with
    | some (some x) => x.threshold == 1 && x.keyIDs == some [id] && (r.signed.keys.get? id).isSome
    | _ => false
  .ok [r.signed.expires == fixedExpire, r.signed.type == ROOT, r.signed.consistentSnapshot, r.signed.keys.entries.length == 4, role ROOT b!"roothash", role SNAPSHOT b!"snapshothash", role TARGETS b!"targetshash",
    role TIMESTAMP b!"timestamphash", r.signed.version == 1, r.signatures.elems.map (fun s => (s.keyID, s.sig)) == [(b!"roothash", Real.sha256 b!"some data")]]

/-- `TestToByte`, lines 464-499. -/
def toByteTest : Bool :=
  let r := newRoot fixedExpire
  let key (p : Str) : Option Key := some { type := b!"ed25519", scheme := b!"ed25519", value := { publicKey := p } }
  let role (id : Str) : Option Role := some { threshold := 1, keyIDs := some [id] }
  let r : Metadata RootType := { r with
    signatures := some [{ keyID := b!"roothash", sig := Real.sha256 b!"some data" }]
    signed := { r.signed with
      keys := some [(b!"roothash", key b!"pubrootval"), (b!"snapshothash", key b!"pubsval"), (b!"targetshash", key b!"pubtrval"), (b!"timestamphash", key b!"pubtmval")]
      roles := some [(ROOT, role b!"roothash"), (SNAPSHOT, role b!"snapshothash"), (TARGETS, role b!"targetshash"), (TIMESTAMP, role b!"timestamphash")] } }
  decide (toBytes env r false = .ok testRootBytes)

/-- `TestFromFile`, lines 501-544. -/
def fromFileTest : Bool := holds do
  let r ← fromBytes (T := RootType) env root1Data
  let role (name id : Str) : Bool := match r.signed.roles.get? name with
    | some (some x) => x.threshold == 1 && x.keyIDs == some [id] && (r.signed.keys.get? id).isSome
    | _ => false
  .ok [r.signed.expires == fixedExpire, r.signed.type == ROOT, r.signed.consistentSnapshot, r.signed.keys.entries.length == 4,
    role ROOT b!"d5fa855fce82db75ec64283e828cc90517df5edf5cdc57e7958a890d6556f5b7", role SNAPSHOT b!"700464ea12f4cb5f06a7512c75b73c0b6eeb2cd42854b085eed5b3c993607cba",
    role TARGETS b!"409fb816e403e0c00646665eac21cb8adfab8e318272ca7589b2d1fc0bccb255", role TIMESTAMP b!"0a5842e65e9c8c428354f40708435de6793ac379a275effe40d6358be2de835c",
    r.signed.specVersion == b!"1.0.31", (match r.signed.unrec with | [(k, .str v)] => k == b!"test" && v == b!"true" | _ => false), r.signed.version == 1,
    r.signatures.elems.map Signature.keyID == [b!"d5fa855fce82db75ec64283e828cc90517df5edf5cdc57e7958a890d6556f5b7"], idsRight r.signed.keys]

/-- `TestVerifyDelegate`, lines 570-621; the key is one of the repository. -/
def verifyDelegateTest : Bool := holds do
  let r := newRoot fixedExpire
  let g := newTargets fixedExpire
  let id := b!"c8022fa1e9b9cb239a6b362bbdffa9649e61ad2cb699d2e4bc4fdf7930a0e64a"
  let key : Key := { type := b!"ed25519", scheme := b!"ed25519", value := { publicKey := b!"fcf224e55fa226056adf113ef1eb3d55e308b75b321c8c8316999d8c4fd9e0d9" }, id := id }
  let d (keyName : Str) (n : Int) : Metadata TargetsType := { g with signed := { g.signed with delegations := some { keys := some [(keyName, some key)], roles := some [{ name := b!"test", keyIDs := some [id], threshold := n }] } } }
  let ty (x : Res Unit) : Bool := match x with
    | .err (.type _) => true
    | _ => false
  .ok [isValue (verifyDelegate env (.root r) b!"test" (.root r)), isValue (verifyDelegate env (.targets g) b!"test" (.targets g)),
    isOk (verifyDelegate env (.targets (d id 0)) b!"test" (.root r)), isOk (verifyDelegate env (.targets (d id 0)) b!"test" (.targets (d id 0))),
    isValue (verifyDelegate env (.targets (d id 0)) b!"non-existing" (.root r)), isValue (verifyDelegate env (.targets (d id 0)) b!"non-existing" (.targets g)),
    isUnsigned (verifyDelegate env (.targets (d id 1)) b!"test" (.targets (d id 1))), !isOk (verifyDelegate env (.targets (d b!"incorrectkey" 1)) b!"test" (.root r)),
    ty (verifyDelegate env (.timestamp (newTimestamp fixedExpire)) b!"test" (.timestamp (newTimestamp fixedExpire))), ty (verifyDelegate env (.snapshot (newSnapshot fixedExpire)) b!"test" (.snapshot (newSnapshot fixedExpire)))]

/-- `TestVerifyLengthHashesTargetFiles` and `TestVerifyLengthHashesMetaFiles`, lines 623-675. -/
def lengthHashes : Bool :=
  let data : Bytes := b!"some data"
  let f (hs : Entries Bytes) (n : Int) : TargetFiles := { newTargetFile with hashes := some hs, length := n }
  let m (hs : Entries Bytes) : MetaFiles := { newMetaFile 0 with hashes := some hs }
  isOk ((f [] 0).verifyLengthHashes env []) && isMismatch ((f [] 0).verifyLengthHashes env data) && isOk ((f [(b!"sha256", Real.sha256 data)] 9).verifyLengthHashes env data) &&
    isMismatch ((f [(b!"unknownAlg", data)] 9).verifyLengthHashes env data) && isMismatch ((f [(b!"sha256", data)] 9).verifyLengthHashes env data) &&
    isMismatch ((m [(b!"unknownAlg", data)]).verifyLengthHashes env data) && isMismatch ((m [(b!"sha256", data)]).verifyLengthHashes env data) &&
    isOk ((m [(b!"sha256", Real.sha256 data)]).verifyLengthHashes env data) && isMismatch ((m [(b!"sha256", Real.sha256 data)]).verifyLengthHashes env b!"another data")

/-! ## `metadata_api_test.go` -/

/-- `TestGenericRead`, lines 49-78. -/
def genericRead : Bool :=
  let bad := b!"{\"signed\": {\"_type\": \"bad-metadata\"}}"
  isValue (fromBytes (T := RootType) env bad) && isValue (fromBytes (T := SnapshotType) env bad) && isValue (fromBytes (T := TargetsType) env bad) && isValue (fromBytes (T := TimestampType) env bad)

/-- `TestGenericReadFromMismatchingRoles`, lines 80-112. -/
def mismatchingRoles : Bool :=
  isValue (fromBytes (T := SnapshotType) env rootData) && isValue (fromBytes (T := TimestampType) env rootData) && isValue (fromBytes (T := TargetsType) env rootData) &&
    isValue (fromBytes (T := SnapshotType) env targetsData) && isValue (fromBytes (T := TimestampType) env targetsData) && isValue (fromBytes (T := RootType) env targetsData) &&
    isValue (fromBytes (T := SnapshotType) env timestampData) && isValue (fromBytes (T := TargetsType) env timestampData) && isValue (fromBytes (T := RootType) env timestampData) &&
    isValue (fromBytes (T := TargetsType) env snapshotData) && isValue (fromBytes (T := TimestampType) env snapshotData) && isValue (fromBytes (T := RootType) env snapshotData)

/-- `TestToFromBytes`, lines 258-334; also `TestCompareFromBytesFromFileToBytes` and the four `ReadWriteReadCompare` tests. -/
def toFromBytes : Bool :=
  sameBytes RootType true rootData && sameBytes SnapshotType true snapshotData && sameBytes TargetsType true targetsData && sameBytes TimestampType true timestampData

/-- The part of `TestSignVerify`, lines 336-414, about the signature of the file: right for the targets key, wrong for the snapshot key. -/
def signVerify : Bool := holds do
  let r ← root
  let g ← targets
  let data ← canonical (← g.signed.marshal)
  let sig := (g.signatures.elems.map Signature.sig).headD []
  let key (role : Str) : Res PublicKey := match r.signed.roles.get? role with
    | some (some x) => match r.signed.keys.get? (x.keyIDs.elems.headD []) with
      | some (some k) => k.toPublicKey env
      | _ => .panic
    | _ => .panic
  .ok [g.signatures.elems.length == 1, Real.verify (← key TARGETS) sig data, !Real.verify (← key SNAPSHOT) sig data]

/-- `TestKeyVerifyFailures`, lines 416-481, as to keys: another type, or no PEM text. -/
def keyFailures : Bool := holds do
  let r ← root
  let t ← timestamp
  match r.signed.keys.get? b!"142919f8e933d7045abff3be450070057814da36331d7a22ccade8b35a9e3946" with
  | some (some k) =>
    let data ← canonical (← t.signed.marshal)
    let sig := (t.signatures.elems.map Signature.sig).headD []
    .ok [!isOk ({ k with type := b!"foo" }.toPublicKey env), Real.verify (← k.toPublicKey env) sig data, !isOk ({ k with value := { k.value with publicKey := b!"ffff" } }.toPublicKey env),
      !Real.verify (← k.toPublicKey env) (Real.sha256 b!"foo") data]
  | _ => .panic

/-- `TestMetadataSignedIsExpired`, lines 483-498. -/
def signedIsExpired : Bool := holds do
  let s ← snapshot
  .ok [s.signed.expires == fixedExpire, isExpired s.signed.expires { fixedExpire with instant := fixedExpire.instant + 1000 }, !isExpired s.signed.expires { fixedExpire with instant := fixedExpire.instant - 1000 }]

/-- `TestMetadataVerifyDelegate`, lines 500-586, up to the new signature. -/
def metadataVerifyDelegate : Bool := holds do
  let r ← root
  let s ← snapshot
  let g ← targets
  let r1 ← role1
  let r2 ← role2
  let tsID := b!"142919f8e933d7045abff3be450070057814da36331d7a22ccade8b35a9e3946"
  let tsKey ← match r.signed.keys.get? tsID with
    | some (some k) => .ok k
    | _ => .panic
  let more : Metadata RootType := { r with signed := (r.signed.addKey env tsKey SNAPSHOT).2 }
  let higher : Metadata RootType := { more with signed := { more.signed with roles := more.signed.roles.map (List.map (fun e => if e.1 = SNAPSHOT then (e.1, e.2.map (fun x => { x with threshold := 2 })) else e)) } }
  let extra : Metadata SnapshotType := { s with signatures := some (s.signatures.elems ++ [{ keyID := tsID, sig := (List.replicate 64 b!"ff").flatten }]) }
  .ok [isOk (verifyDelegate env (.root r) ROOT (.root r)), isOk (verifyDelegate env (.root r) SNAPSHOT (.snapshot s)), isOk (verifyDelegate env (.root r) TARGETS (.targets g)),
    isOk (verifyDelegate env (.targets g) b!"role1" (.targets r1)), isOk (verifyDelegate env (.targets r1) b!"role2" (.targets r2)),
    (match verifyDelegate env (.snapshot s) SNAPSHOT (.snapshot s) with | .err (.type _) => true | _ => false),
    isValue (verifyDelegate env (.root r) b!"role1" (.targets r1)), isValue (verifyDelegate env (.targets g) TARGETS (.targets g)), isValue (verifyDelegate env (.targets r2) b!"role1" (.targets r1)),
    isUnsigned (verifyDelegate env (.root r) SNAPSHOT (.snapshot { s with signed := { s.signed with expires := timeOf ⟨2030, 8, 16, 14, 30, 45, 100, 0⟩ } })),
    isUnsigned (verifyDelegate env (.root r) SNAPSHOT (.snapshot { s with signatures := some (s.signatures.elems.map (fun x => { x with sig := b!"foo" })) })),
    isUnsigned (verifyDelegate env (.root r) TIMESTAMP (.snapshot s)),
    isOk (verifyDelegate env (.root more) SNAPSHOT (.snapshot extra)), isUnsigned (verifyDelegate env (.root higher) SNAPSHOT (.snapshot extra))]

/-- `TestRootAddKeyAndRevokeKey`, lines 588-648; the key is that of the delegation. -/
def rootKeys : Bool := holds do
  let r ← root
  let key : Key := { type := b!"ed25519", scheme := b!"ed25519", value := { publicKey := b!"edcd0a32a07dce33f7c7873aaffbff36d20ea30787574ead335eefd337e4dacd" } }
  let (id, _) ← key.ID env
  let ids (s : RootType) (role : Str) : List Str := match s.roles.get? role with
    | some (some x) => x.keyIDs.elems
    | _ => []
  let a := r.signed.addKey env key ROOT
  let b := a.2.addKey env key ROOT
  let c := b.2.addKey env key TARGETS
  let d := c.2.revokeKey id ROOT
  let e := d.2.revokeKey id TARGETS
  .ok [id ∉ ids r.signed ROOT, (r.signed.keys.get? id).isNone, isOk a.1, id ∈ ids a.2 ROOT, (a.2.keys.get? id).isSome, isOk b.1, ids b.2 ROOT == ids a.2 ROOT, isOk c.1, isValue (c.2.addKey env key b!"nosuchrole").1,
    isOk d.1, id ∉ ids d.2 ROOT, (d.2.keys.get? id).isSome, isOk e.1, (e.2.keys.get? id).isNone, isValue (e.2.revokeKey b!"nosuchkey" ROOT).1, isValue (e.2.revokeKey id b!"nosuchrole").1]

/-- `TestTargetsKeyAPI`, lines 650-726. -/
def targetsKeys : Bool := holds do
  let g ← targets
  let g0 : TargetsType := { g.signed with delegations := g.signed.delegations.map (fun d => { d with roles := some (d.roles.elems ++ [{ name := b!"role2", paths := some [b!"fn3", b!"fn4"], keyIDs := some [], threshold := 1 }]) }) }
  let key : Key := { type := b!"ed25519", scheme := b!"ed25519", value := { publicKey := b!"edcd0a32a07dce33f7c7873aaffbff36d20ea30787574ead335eefd337e4dacd" } }
  let (id, _) ← key.ID env
  let ids (s : TargetsType) (n : Nat) : List Str := ((s.delegations.map (fun d => (d.roles.elems.getD n {}).keyIDs.elems)).getD [])
  let a := g0.addKey env key b!"role1"
  let b := a.2.addKey env key b!"role1"
  let c := b.2.addKey env key b!"role2"
  let d := c.2.revokeKey id b!"role1"
  let e := d.2.revokeKey id b!"role2"
  let none' : TargetsType := { e.2 with delegations := none }
  .ok [id ∉ ids g0 0, isOk a.1, id ∈ ids a.2 0, isOk b.1, ids b.2 0 == ids a.2 0, isValue (b.2.addKey env key b!"nosuchrole").1, isOk c.1, isOk d.1, id ∉ ids d.2 0, id ∈ ids d.2 1, isOk e.1, id ∉ ids e.2 1,
    isValue (e.2.revokeKey id b!"role1").1, isValue (e.2.revokeKey id b!"nosuchrole").1, isValue (none'.addKey env key b!"role1").1, isValue (none'.revokeKey id b!"role1").1]

/-- `TestTargetsKeyAPIWithSuccinctRoles`, lines 728-775. -/
def succinctKeys : Bool := holds do
  let g ← targets
  let g0 : TargetsType := { g.signed with delegations := g.signed.delegations.map (fun d => { d with roles := none, keys := some [], succinctRoles := some { keyIDs := some [], threshold := 1, bitLength := 8, namePrefix := b!"foo" } }) }
  let key : Key := { type := b!"ed25519", scheme := b!"ed25519", value := { publicKey := b!"edcd0a32a07dce33f7c7873aaffbff36d20ea30787574ead335eefd337e4dacd" } }
  let (id, _) ← key.ID env
  let ids (s : TargetsType) : List Str := ((s.delegations.bind (fun d => d.succinctRoles.map (fun r => r.keyIDs.elems))).getD [])
  let keys (s : TargetsType) : List Str := ((s.delegations.map (fun d => d.keys.entries.map Prod.fst)).getD [])
  let a := g0.addKey env key b!"foo"
  let b := a.2.addKey env key b!"foo"
  let c := b.2.revokeKey id b!"foo"
  .ok [isOk a.1, ids a.2 == [id], keys a.2 == [id], isOk b.1, keys b.2 == [id], isOk c.1, ids c.2 == [], keys c.2 == [], isValue (c.2.revokeKey id b!"foo").1]

/-- `TestLengthAndHashValidation`, lines 777-842. -/
def lengthAndHash : Bool := holds do
  let g ← targets
  let h := Real.sha256 snapshotData
  let f : MetaFiles := { version := 1, hashes := some [(b!"sha256", h)], length := 652 }
  let file ← match g.signed.targets.get? b!"file1.txt" with
    | some (some f) => .ok f
    | _ => .panic
  .ok [isOk (f.verifyLengthHashes env snapshotData), isMismatch ({ f with length := 2345 }.verifyLengthHashes env snapshotData), isMismatch ({ f with hashes := some [(b!"sha256", b!"incorrecthash")] }.verifyLengthHashes env snapshotData),
    isMismatch ({ f with hashes := some [(b!"sha256", h), (b!"unsupported-alg", b!"72")] }.verifyLengthHashes env snapshotData), isOk ({ f with length := 0, hashes := none }.verifyLengthHashes env snapshotData),
    isOk (file.verifyLengthHashes env file1), isMismatch ({ file with length := 2345 }.verifyLengthHashes env file1), isMismatch ({ file with hashes := some [(b!"sha256", b!"incorrecthash")] }.verifyLengthHashes env file1)]

/-- `TestTargetFileFromFile` and `TestTargetFileFromBytes`, lines 844-888. -/
def targetFileTest : Bool := holds do
  let f ← targetFileFromBytes env b!"file1.txt" file1 [b!"sha256"]
  let i ← targetFileFromBytes env b!"file1.txt" b!"Inline test content" [b!"sha256"]
  let j ← targetFileFromBytes env b!"file1.txt" b!"Inline test content" []
  .ok [isOk (f.verifyLengthHashes env file1), isMismatch (f.verifyLengthHashes env file2), isValue (targetFileFromBytes env b!"file1.txt" file1 [b!"123"]),
    isOk (i.verifyLengthHashes env b!"Inline test content"), isOk (j.verifyLengthHashes env b!"Inline test content")]

/-- `TestIsDelegatedRole`, lines 890-920. -/
def delegatedRole : Bool :=
  let a : DelegatedRole := { keyIDs := some [], threshold := 1, paths := some [b!"a/path", b!"otherpath", b!"a/path", b!"*/?ath"] }
  let b : DelegatedRole := { keyIDs := some [], threshold := 1, pathHashPrefixes := some [b!"knsOz5xYT", b!"other prefix", b!"knsOz5xYT", b!"knsOz", b!"kn"] }
  !a.isDelegatedPath env b!"a/non-matching-path" && a.isDelegatedPath env b!"a/path" && !b.isDelegatedPath env b!"a/non-matching-path" && b.isDelegatedPath env b!"a/path"

/-- `TestIsDelegatedRoleInSuccinctRoles`, lines 922-949. -/
def succinctNames : Bool :=
  let r : SuccinctRoles := { keyIDs := some [], threshold := 1, bitLength := 5, namePrefix := b!"bin" }
  [b!"foo", b!"bin-", b!"bin-s", b!"bin-0t", b!"bin-20", b!"bin-100"].all (fun n => !r.isDelegatedRole n) && [b!"bin-00", b!"bin-0f", b!"bin-1f"].all (fun n => r.isDelegatedRole n)

/-- The part of `TestGetRolesInSuccinctRoles`, lines 951-975, about the length of the suffix. -/
def succinctSuffix : Bool := ({ keyIDs := some [], threshold := 1, bitLength := 16, namePrefix := b!"bin" } : SuccinctRoles).getSuffixLen.1 == 4

/-! ## A client -/

/-- A server with the files, where the metadata has versions in its names. -/
def files : List (Str × Bytes) :=
  [(b!"https://a.b/timestamp.json", timestampData), (b!"https://a.b/1.snapshot.json", snapshotData), (b!"https://a.b/1.targets.json", targetsData), (b!"https://a.b/1.role1.json", role1Data),
    (b!"https://a.b/1.role2.json", role2Data), (b!"https://a.b/targets/65b8c67f51c993d898250f40aa57a317d854900b3a04895464313e48785440da.file1.txt", file1),
    (b!"https://a.b/targets/141f740f53781d1ca54b8a50af22cbf74e44c21a998fa2a8a05aaac2c002886b.file3.txt", file3),
    (b!"https://a.b/targets/ef5beafa16041bcdd2937140afebd485296cd54f7348ecd5a4d035c09759608de467a7ac0eb58753d0242df873c305e8bffad2454aa48f44480f15efae1cacd0.file3.txt", file3)]

def server (fs : List (Str × Bytes)) (url : Str) : Except Err Bytes := match fs.find? (fun f => f.1 == url) with
  | some f => .ok f.2
  | none => .error (.downloadHTTP 404 url)

def ctx (fs : List (Str × Bytes)) (now : Time) : Ctx :=
  ⟨env, { Sample.hostOf (server fs) with now := fun _ => now }, { localTrustedRoot := rootData, localMetadataDir := b!"m", localTargetsDir := b!"t", remoteMetadataURL := b!"https://a.b", remoteTargetsURL := b!"https://a.b/targets" }⟩

/-- `New`, `Refresh`, `GetTargetInfo` and `DownloadTarget` for a file. -/
def client (fs : List (Str × Bytes)) (now : Time) (path : Str) : Res Bytes :=
  let x := ctx fs now
  match newUpdater x { fs := Sample.disk [] } with
  | (.ok t, w) => ((do
      refresh x
      match ← getTargetInfo x path with
      | some f => do
        let r ← downloadTarget x { f with path := path } [] []
        pure r.2
      | none => SM.throw (.other "nil") : M Bytes) ⟨t, w⟩).1
  | (.err e, _) => .err e
  | (.panic, _) => .panic

end RepoData

open RepoData

example : defaultValues = true := by decide +kernel
example : delegatedPaths = true := by decide +kernel
example : unrecognizedSigned = true := by decide +kernel
example : unrecognizedGeneric = true := by decide +kernel
example : customField = true := by decide +kernel
example : fromBytesTest = true := by decide +kernel
example : toByteTest = true := by decide +kernel
example : fromFileTest = true := by decide +kernel
example : verifyDelegateTest = true := by decide +kernel
example : lengthHashes = true := by decide +kernel
example : genericRead = true := by decide +kernel
example : mismatchingRoles = true := by decide +kernel
example : toFromBytes = true := by decide +kernel
example : signVerify = true := by decide +kernel
example : keyFailures = true := by decide +kernel
example : signedIsExpired = true := by decide +kernel
example : metadataVerifyDelegate = true := by decide +kernel
example : rootKeys = true := by decide +kernel
example : targetsKeys = true := by decide +kernel
example : succinctKeys = true := by decide +kernel
example : lengthAndHash = true := by decide +kernel
example : targetFileTest = true := by decide +kernel
example : delegatedRole = true := by decide +kernel
example : succinctNames = true := by decide +kernel
example : succinctSuffix = true := by decide +kernel

example : client files (timeOf ⟨2025, 1, 1, 0, 0, 0, 0, 0⟩) b!"file1.txt" = .ok file1 := by decide +kernel
example : client files (timeOf ⟨2025, 1, 1, 0, 0, 0, 0, 0⟩) b!"file3.txt" = .ok file3 := by decide +kernel

end Tuf
