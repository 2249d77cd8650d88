/-!
# The `zh_Hans` word list of src/words/catalogs/mnemonic.cpp:16469-18522 (generated by tools/gen_words.py)

Each word is the number its UTF-8 bytes spell, most significant byte first.
-/
namespace Verif.Catalog

private def zhHans0 : List Nat := [
  0xe79a84, 0xe4b880, 0xe698af, 0xe59ca8, 0xe4b88d, 0xe4ba86, 0xe69c89, 0xe5928c,
  0xe4baba, 0xe8bf99, 0xe4b8ad, 0xe5a4a7, 0xe4b8ba, 0xe4b88a, 0xe4b8aa, 0xe59bbd,
  0xe68891, 0xe4bba5, 0xe8a681, 0xe4bb96, 0xe697b6, 0xe69da5, 0xe794a8, 0xe4bbac,
  0xe7949f, 0xe588b0, 0xe4bd9c, 0xe59cb0, 0xe4ba8e, 0xe587ba, 0xe5b0b1, 0xe58886,
  0xe5afb9, 0xe68890, 0xe4bc9a, 0xe58faf, 0xe4b8bb, 0xe58f91, 0xe5b9b4, 0xe58aa8,
  0xe5908c, 0xe5b7a5, 0xe4b99f, 0xe883bd, 0xe4b88b, 0xe8bf87, 0xe5ad90, 0xe8afb4,
  0xe4baa7, 0xe7a78d, 0xe99da2, 0xe8808c, 0xe696b9, 0xe5908e, 0xe5a49a, 0xe5ae9a,
  0xe8a18c, 0xe5ada6, 0xe6b395, 0xe68980, 0xe6b091, 0xe5be97, 0xe7bb8f, 0xe58d81,
  0xe4b889, 0xe4b98b, 0xe8bf9b, 0xe79d80, 0xe7ad89, 0xe983a8, 0xe5baa6, 0xe5aeb6,
  0xe794b5, 0xe58a9b, 0xe9878c, 0xe5a682, 0xe6b0b4, 0xe58c96, 0xe9ab98, 0xe887aa,
  0xe4ba8c, 0xe79086, 0xe8b5b7, 0xe5b08f, 0xe789a9, 0xe78eb0, 0xe5ae9e, 0xe58aa0,
  0xe9878f, 0xe983bd, 0xe4b8a4, 0xe4bd93, 0xe588b6, 0xe69cba, 0xe5bd93, 0xe4bdbf,
  0xe782b9, 0xe4bb8e, 0xe4b89a, 0xe69cac, 0xe58ebb, 0xe68a8a, 0xe680a7, 0xe5a5bd,
  0xe5ba94, 0xe5bc80, 0xe5ae83, 0xe59088, 0xe8bf98, 0xe59ba0, 0xe794b1, 0xe585b6,
  0xe4ba9b, 0xe784b6, 0xe5898d, 0xe5a496, 0xe5a4a9, 0xe694bf, 0xe59b9b, 0xe697a5,
  0xe982a3, 0xe7a4be, 0xe4b989, 0xe4ba8b, 0xe5b9b3, 0xe5bda2, 0xe79bb8, 0xe585a8]
private def zhHans1 : List Nat := [
  0xe8a1a8, 0xe997b4, 0xe6a0b7, 0xe4b88e, 0xe585b3, 0xe59084, 0xe9878d, 0xe696b0,
  0xe7babf, 0xe58685, 0xe695b0, 0xe6ada3, 0xe5bf83, 0xe58f8d, 0xe4bda0, 0xe6988e,
  0xe79c8b, 0xe58e9f, 0xe58f88, 0xe4b988, 0xe588a9, 0xe6af94, 0xe68896, 0xe4bd86,
  0xe8b4a8, 0xe6b094, 0xe7acac, 0xe59091, 0xe98193, 0xe591bd, 0xe6ada4, 0xe58f98,
  0xe69da1, 0xe58faa, 0xe6b2a1, 0xe7bb93, 0xe8a7a3, 0xe997ae, 0xe6848f, 0xe5bbba,
  0xe69c88, 0xe585ac, 0xe697a0, 0xe7b3bb, 0xe5869b, 0xe5be88, 0xe68385, 0xe88085,
  0xe69c80, 0xe7ab8b, 0xe4bba3, 0xe683b3, 0xe5b7b2, 0xe9809a, 0xe5b9b6, 0xe68f90,
  0xe79bb4, 0xe9a298, 0xe5859a, 0xe7a88b, 0xe5b195, 0xe4ba94, 0xe69e9c, 0xe69699,
  0xe8b1a1, 0xe59198, 0xe99da9, 0xe4bd8d, 0xe585a5, 0xe5b8b8, 0xe69687, 0xe680bb,
  0xe6aca1, 0xe59381, 0xe5bc8f, 0xe6b4bb, 0xe8aebe, 0xe58f8a, 0xe7aea1, 0xe789b9,
  0xe4bbb6, 0xe995bf, 0xe6b182, 0xe88081, 0xe5a4b4, 0xe59fba, 0xe8b584, 0xe8beb9,
  0xe6b581, 0xe8b7af, 0xe7baa7, 0xe5b091, 0xe59bbe, 0xe5b1b1, 0xe7bb9f, 0xe68ea5,
  0xe79fa5, 0xe8be83, 0xe5b086, 0xe7bb84, 0xe8a781, 0xe8aea1, 0xe588ab, 0xe5a5b9,
  0xe6898b, 0xe8a792, 0xe69c9f, 0xe6a0b9, 0xe8aeba, 0xe8bf90, 0xe5869c, 0xe68c87,
  0xe587a0, 0xe4b99d, 0xe58cba, 0xe5bcba, 0xe694be, 0xe586b3, 0xe8a5bf, 0xe8a2ab,
  0xe5b9b2, 0xe5819a, 0xe5bf85, 0xe68898, 0xe58588, 0xe59b9e, 0xe58899, 0xe4bbbb]
private def zhHans2 : List Nat := [
  0xe58f96, 0xe68dae, 0xe5a484, 0xe9989f, 0xe58d97, 0xe7bb99, 0xe889b2, 0xe58589,
  0xe997a8, 0xe58db3, 0xe4bf9d, 0xe6b2bb, 0xe58c97, 0xe980a0, 0xe799be, 0xe8a784,
  0xe783ad, 0xe9a286, 0xe4b883, 0xe6b5b7, 0xe58fa3, 0xe4b89c, 0xe5afbc, 0xe599a8,
  0xe58e8b, 0xe5bf97, 0xe4b896, 0xe98791, 0xe5a29e, 0xe4ba89, 0xe6b58e, 0xe998b6,
  0xe6b2b9, 0xe6809d, 0xe69caf, 0xe69e81, 0xe4baa4, 0xe58f97, 0xe88194, 0xe4bb80,
  0xe8aea4, 0xe585ad, 0xe585b1, 0xe69d83, 0xe694b6, 0xe8af81, 0xe694b9, 0xe6b885,
  0xe7be8e, 0xe5868d, 0xe98787, 0xe8bdac, 0xe69bb4, 0xe58d95, 0xe9a38e, 0xe58887,
  0xe68993, 0xe799bd, 0xe69599, 0xe9809f, 0xe88ab1, 0xe5b8a6, 0xe5ae89, 0xe59cba,
  0xe8baab, 0xe8bda6, 0xe4be8b, 0xe79c9f, 0xe58aa1, 0xe585b7, 0xe4b887, 0xe6af8f,
  0xe79bae, 0xe887b3, 0xe8bebe, 0xe8b5b0, 0xe7a7af, 0xe7a4ba, 0xe8aeae, 0xe5a3b0,
  0xe68aa5, 0xe69697, 0xe5ae8c, 0xe7b1bb, 0xe585ab, 0xe7a6bb, 0xe58d8e, 0xe5908d,
  0xe7a1ae, 0xe6898d, 0xe7a791, 0xe5bca0, 0xe4bfa1, 0xe9a9ac, 0xe88a82, 0xe8af9d,
  0xe7b1b3, 0xe695b4, 0xe7a9ba, 0xe58583, 0xe586b5, 0xe4bb8a, 0xe99b86, 0xe6b8a9,
  0xe4bca0, 0xe59c9f, 0xe8aeb8, 0xe6ada5, 0xe7bea4, 0xe5b9bf, 0xe79fb3, 0xe8aeb0,
  0xe99c80, 0xe6aeb5, 0xe7a094, 0xe7958c, 0xe68b89, 0xe69e97, 0xe5be8b, 0xe58fab,
  0xe4b894, 0xe7a9b6, 0xe8a782, 0xe8b68a, 0xe7bb87, 0xe8a385, 0xe5bdb1, 0xe7ae97]
private def zhHans3 : List Nat := [
  0xe4bd8e, 0xe68c81, 0xe99fb3, 0xe4bc97, 0xe4b9a6, 0xe5b883, 0xe5a48d, 0xe5aeb9,
  0xe584bf, 0xe9a1bb, 0xe99985, 0xe59586, 0xe99d9e, 0xe9aa8c, 0xe8bf9e, 0xe696ad,
  0xe6b7b1, 0xe99abe, 0xe8bf91, 0xe79fbf, 0xe58d83, 0xe591a8, 0xe5a794, 0xe7b4a0,
  0xe68a80, 0xe5a487, 0xe58d8a, 0xe58a9e, 0xe99d92, 0xe79c81, 0xe58897, 0xe4b9a0,
  0xe5938d, 0xe7baa6, 0xe694af, 0xe888ac, 0xe58fb2, 0xe6849f, 0xe58ab3, 0xe4bebf,
  0xe59ba2, 0xe5be80, 0xe985b8, 0xe58e86, 0xe5b882, 0xe5858b, 0xe4bd95, 0xe999a4,
  0xe6b688, 0xe69e84, 0xe5ba9c, 0xe7a7b0, 0xe5a4aa, 0xe58786, 0xe7b2be, 0xe580bc,
  0xe58fb7, 0xe78e87, 0xe6978f, 0xe7bbb4, 0xe58892, 0xe98089, 0xe6a087, 0xe58699,
  0xe5ad98, 0xe58099, 0xe6af9b, 0xe4bab2, 0xe5bfab, 0xe69588, 0xe696af, 0xe999a2,
  0xe69fa5, 0xe6b19f, 0xe59e8b, 0xe79cbc, 0xe78e8b, 0xe68c89, 0xe6a0bc, 0xe585bb,
  0xe69893, 0xe7bdae, 0xe6b4be, 0xe5b182, 0xe78987, 0xe5a78b, 0xe58db4, 0xe4b893,
  0xe78ab6, 0xe882b2, 0xe58e82, 0xe4baac, 0xe8af86, 0xe98082, 0xe5b19e, 0xe59c86,
  0xe58c85, 0xe781ab, 0xe4bd8f, 0xe8b083, 0xe6bba1, 0xe58ebf, 0xe5b180, 0xe785a7,
  0xe58f82, 0xe7baa2, 0xe7bb86, 0xe5bc95, 0xe590ac, 0xe8afa5, 0xe99381, 0xe4bbb7,
  0xe4b8a5, 0xe9a696, 0xe5ba95, 0xe6b6b2, 0xe5ae98, 0xe5beb7, 0xe99a8f, 0xe79785,
  0xe88b8f, 0xe5a4b1, 0xe5b094, 0xe6adbb, 0xe8aeb2, 0xe9858d, 0xe5a5b3, 0xe9bb84]
private def zhHans4 : List Nat := [
  0xe68ea8, 0xe698be, 0xe8b088, 0xe7bdaa, 0xe7a59e, 0xe889ba, 0xe591a2, 0xe5b8ad,
  0xe590ab, 0xe4bc81, 0xe69c9b, 0xe5af86, 0xe689b9, 0xe890a5, 0xe9a1b9, 0xe998b2,
  0xe4b8be, 0xe79083, 0xe88bb1, 0xe6b0a7, 0xe58abf, 0xe5918a, 0xe69d8e, 0xe58fb0,
  0xe890bd, 0xe69ca8, 0xe5b8ae, 0xe8bdae, 0xe7a0b4, 0xe4ba9a, 0xe5b888, 0xe59bb4,
  0xe6b3a8, 0xe8bf9c, 0xe5ad97, 0xe69d90, 0xe68e92, 0xe4be9b, 0xe6b2b3, 0xe68081,
  0xe5b081, 0xe58fa6, 0xe696bd, 0xe5878f, 0xe6a091, 0xe6bab6, 0xe6808e, 0xe6ada2,
  0xe6a188, 0xe8a880, 0xe5a3ab, 0xe59d87, 0xe6ada6, 0xe59bba, 0xe58fb6, 0xe9b1bc,
  0xe6b3a2, 0xe8a786, 0xe4bb85, 0xe8b4b9, 0xe7b4a7, 0xe788b1, 0xe5b7a6, 0xe7aba0,
  0xe697a9, 0xe69c9d, 0xe5aeb3, 0xe7bbad, 0xe8bdbb, 0xe69c8d, 0xe8af95, 0xe9a39f,
  0xe58585, 0xe585b5, 0xe6ba90, 0xe588a4, 0xe68aa4, 0xe58fb8, 0xe8b6b3, 0xe69f90,
  0xe7bb83, 0xe5b7ae, 0xe887b4, 0xe69dbf, 0xe794b0, 0xe9998d, 0xe9bb91, 0xe78aaf,
  0xe8b49f, 0xe587bb, 0xe88c83, 0xe7bba7, 0xe585b4, 0xe4bcbc, 0xe4bd99, 0xe59d9a,
  0xe69bb2, 0xe8be93, 0xe4bfae, 0xe69585, 0xe59f8e, 0xe5a4ab, 0xe5a49f, 0xe98081,
  0xe7ac94, 0xe888b9, 0xe58da0, 0xe58fb3, 0xe8b4a2, 0xe59083, 0xe5af8c, 0xe698a5,
  0xe8818c, 0xe8a789, 0xe6b189, 0xe794bb, 0xe58a9f, 0xe5b7b4, 0xe8b79f, 0xe899bd,
  0xe69d82, 0xe9a39e, 0xe6a380, 0xe590b8, 0xe58aa9, 0xe58d87, 0xe998b3, 0xe4ba92]
private def zhHans5 : List Nat := [
  0xe5889d, 0xe5889b, 0xe68a97, 0xe88083, 0xe68a95, 0xe59d8f, 0xe7ad96, 0xe58fa4,
  0xe5be84, 0xe68da2, 0xe69caa, 0xe8b791, 0xe79599, 0xe992a2, 0xe69bbe, 0xe7abaf,
  0xe8b4a3, 0xe7ab99, 0xe7ae80, 0xe8bfb0, 0xe992b1, 0xe589af, 0xe5b0bd, 0xe5b89d,
  0xe5b084, 0xe88d89, 0xe586b2, 0xe689bf, 0xe78bac, 0xe4bba4, 0xe99990, 0xe998bf,
  0xe5aea3, 0xe78eaf, 0xe58f8c, 0xe8afb7, 0xe8b685, 0xe5beae, 0xe8aea9, 0xe68ea7,
  0xe5b79e, 0xe889af, 0xe8bdb4, 0xe689be, 0xe590a6, 0xe7baaa, 0xe79b8a, 0xe4be9d,
  0xe4bc98, 0xe9a1b6, 0xe7a180, 0xe8bdbd, 0xe58092, 0xe688bf, 0xe7aa81, 0xe59d90,
  0xe7b289, 0xe6958c, 0xe795a5, 0xe5aea2, 0xe8a281, 0xe586b7, 0xe8839c, 0xe7bb9d,
  0xe69e90, 0xe59d97, 0xe58982, 0xe6b58b, 0xe4b89d, 0xe58d8f, 0xe8af89, 0xe5bfb5,
  0xe99988, 0xe4bb8d, 0xe7bd97, 0xe79b90, 0xe58f8b, 0xe6b48b, 0xe99499, 0xe88ba6,
  0xe5a49c, 0xe58891, 0xe7a7bb, 0xe9a291, 0xe98090, 0xe99da0, 0xe6b7b7, 0xe6af8d,
  0xe79fad, 0xe79aae, 0xe7bb88, 0xe8819a, 0xe6b1bd, 0xe69d91, 0xe4ba91, 0xe593aa,
  0xe697a2, 0xe8b79d, 0xe58dab, 0xe5819c, 0xe78388, 0xe5a4ae, 0xe5af9f, 0xe783a7,
  0xe8bf85, 0xe5a283, 0xe88ba5, 0xe58db0, 0xe6b4b2, 0xe588bb, 0xe68bac, 0xe6bf80,
  0xe5ad94, 0xe6909e, 0xe7949a, 0xe5aea4, 0xe5be85, 0xe6a0b8, 0xe6a0a1, 0xe695a3,
  0xe4beb5, 0xe590a7, 0xe794b2, 0xe6b8b8, 0xe4b985, 0xe88f9c, 0xe591b3, 0xe697a7]
private def zhHans6 : List Nat := [
  0xe6a8a1, 0xe6b996, 0xe8b4a7, 0xe68d9f, 0xe9a284, 0xe998bb, 0xe6afab, 0xe699ae,
  0xe7a8b3, 0xe4b999, 0xe5a688, 0xe6a48d, 0xe681af, 0xe689a9, 0xe993b6, 0xe8afad,
  0xe68ca5, 0xe98592, 0xe5ae88, 0xe68bbf, 0xe5ba8f, 0xe7bab8, 0xe58cbb, 0xe7bcba,
  0xe99ba8, 0xe59097, 0xe99288, 0xe58898, 0xe5958a, 0xe680a5, 0xe594b1, 0xe8afaf,
  0xe8aead, 0xe684bf, 0xe5aea1, 0xe99984, 0xe88eb7, 0xe88cb6, 0xe9b29c, 0xe7b2ae,
  0xe696a4, 0xe5ada9, 0xe884b1, 0xe7a1ab, 0xe882a5, 0xe59684, 0xe9be99, 0xe6bc94,
  0xe788b6, 0xe6b890, 0xe8a180, 0xe6aca2, 0xe6a2b0, 0xe68e8c, 0xe6ad8c, 0xe6b299,
  0xe5889a, 0xe694bb, 0xe8b093, 0xe79bbe, 0xe8aea8, 0xe6999a, 0xe7b292, 0xe4b9b1,
  0xe78783, 0xe79f9b, 0xe4b98e, 0xe69d80, 0xe88daf, 0xe5ae81, 0xe9b281, 0xe8b4b5,
  0xe9929f, 0xe785a4, 0xe8afbb, 0xe78fad, 0xe4bcaf, 0xe9a699, 0xe4bb8b, 0xe8bfab,
  0xe58fa5, 0xe4b8b0, 0xe59fb9, 0xe68fa1, 0xe585b0, 0xe68b85, 0xe5bca6, 0xe89b8b,
  0xe6b289, 0xe58187, 0xe7a9bf, 0xe689a7, 0xe7ad94, 0xe4b990, 0xe8b081, 0xe9a1ba,
  0xe7839f, 0xe7bca9, 0xe5be81, 0xe884b8, 0xe5969c, 0xe69dbe, 0xe8849a, 0xe59bb0,
  0xe5bc82, 0xe5858d, 0xe8838c, 0xe6989f, 0xe7a68f, 0xe4b9b0, 0xe69f93, 0xe4ba95,
  0xe6a682, 0xe685a2, 0xe68095, 0xe7a381, 0xe5808d, 0xe7a596, 0xe79a87, 0xe4bf83,
  0xe99d99, 0xe8a1a5, 0xe8af84, 0xe7bfbb, 0xe88289, 0xe8b7b5, 0xe5b0bc, 0xe8a1a3]
private def zhHans7 : List Nat := [
  0xe5aebd, 0xe689ac, 0xe6a389, 0xe5b88c, 0xe4bca4, 0xe6938d, 0xe59e82, 0xe7a78b,
  0xe5ae9c, 0xe6b0a2, 0xe5a597, 0xe79da3, 0xe68caf, 0xe69eb6, 0xe4baae, 0xe69cab,
  0xe5aeaa, 0xe5ba86, 0xe7bc96, 0xe7899b, 0xe8a7a6, 0xe698a0, 0xe99bb7, 0xe99480,
  0xe8af97, 0xe5baa7, 0xe5b185, 0xe68a93, 0xe8a382, 0xe8839e, 0xe591bc, 0xe5a898,
  0xe699af, 0xe5a881, 0xe7bbbf, 0xe699b6, 0xe58e9a, 0xe79b9f, 0xe8a1a1, 0xe9b8a1,
  0xe5ad99, 0xe5bbb6, 0xe58db1, 0xe883b6, 0xe5b18b, 0xe4b9a1, 0xe4b8b4, 0xe99986,
  0xe9a1be, 0xe68e89, 0xe59180, 0xe781af, 0xe5b281, 0xe68eaa, 0xe69d9f, 0xe88090,
  0xe589a7, 0xe78e89, 0xe8b5b5, 0xe8b7b3, 0xe593a5, 0xe5ada3, 0xe8afbe, 0xe587af,
  0xe883a1, 0xe9a29d, 0xe6acbe, 0xe7bb8d, 0xe58db7, 0xe9bd90, 0xe4bc9f, 0xe892b8,
  0xe6ae96, 0xe6b0b8, 0xe5ae97, 0xe88b97, 0xe5b79d, 0xe78289, 0xe5b2a9, 0xe5bcb1,
  0xe99bb6, 0xe69da8, 0xe5a58f, 0xe6b2bf, 0xe99cb2, 0xe69d86, 0xe68ea2, 0xe6bb91,
  0xe99587, 0xe9a5ad, 0xe6b593, 0xe888aa, 0xe68080, 0xe8b5b6, 0xe5ba93, 0xe5a4ba,
  0xe4bc8a, 0xe781b5, 0xe7a88e, 0xe98094, 0xe781ad, 0xe8b59b, 0xe5bd92, 0xe58fac,
  0xe9bc93, 0xe692ad, 0xe79b98, 0xe8a381, 0xe999a9, 0xe5bab7, 0xe594af, 0xe5bd95,
  0xe88f8c, 0xe7baaf, 0xe5809f, 0xe7b396, 0xe79b96, 0xe6a8aa, 0xe7aca6, 0xe7a781,
  0xe58aaa, 0xe5a082, 0xe59f9f, 0xe69eaa, 0xe6b6a6, 0xe5b985, 0xe59388, 0xe7ab9f]
private def zhHans8 : List Nat := [
  0xe7869f, 0xe899ab, 0xe6b3bd, 0xe88491, 0xe5a3a4, 0xe7a2b3, 0xe6aca7, 0xe9818d,
  0xe4bea7, 0xe5afa8, 0xe695a2, 0xe5bdbb, 0xe89991, 0xe6969c, 0xe89684, 0xe5baad,
  0xe7bab3, 0xe5bcb9, 0xe9a5b2, 0xe4bcb8, 0xe68a98, 0xe9baa6, 0xe6b9bf, 0xe69a97,
  0xe88db7, 0xe793a6, 0xe5a19e, 0xe5ba8a, 0xe7ad91, 0xe681b6, 0xe688b7, 0xe8aebf,
  0xe5a194, 0xe5a587, 0xe9808f, 0xe6a281, 0xe58880, 0xe6978b, 0xe8bfb9, 0xe58da1,
  0xe6b0af, 0xe98187, 0xe4bbbd, 0xe6af92, 0xe6b3a5, 0xe98080, 0xe6b497, 0xe69186,
  0xe781b0, 0xe5bda9, 0xe58d96, 0xe88097, 0xe5a48f, 0xe68ba9, 0xe5bf99, 0xe9939c,
  0xe78cae, 0xe7a1ac, 0xe4ba88, 0xe7b981, 0xe59c88, 0xe99baa, 0xe587bd, 0xe4baa6,
  0xe68abd, 0xe7af87, 0xe998b5, 0xe998b4, 0xe4b881, 0xe5b0ba, 0xe8bfbd, 0xe5a086,
  0xe99b84, 0xe8bf8e, 0xe6b39b, 0xe788b8, 0xe6a5bc, 0xe981bf, 0xe8b08b, 0xe590a8,
  0xe9878e, 0xe78caa, 0xe69797, 0xe7b4af, 0xe5818f, 0xe585b8, 0xe9a686, 0xe7b4a2,
  0xe7a7a6, 0xe88482, 0xe6bdae, 0xe788b7, 0xe8b186, 0xe5bfbd, 0xe68998, 0xe6838a,
  0xe5a191, 0xe98197, 0xe68488, 0xe69cb1, 0xe69bbf, 0xe7baa4, 0xe7b297, 0xe580be,
  0xe5b09a, 0xe7979b, 0xe6a59a, 0xe8b0a2, 0xe5a58b, 0xe8b4ad, 0xe7a3a8, 0xe5909b,
  0xe6b1a0, 0xe69781, 0xe7a28e, 0xe9aaa8, 0xe79b91, 0xe68d95, 0xe5bc9f, 0xe69ab4,
  0xe589b2, 0xe8b4af, 0xe6ae8a, 0xe9878a, 0xe8af8d, 0xe4baa1, 0xe5a381, 0xe9a1bf]
private def zhHans9 : List Nat := [
  0xe5ae9d, 0xe58d88, 0xe5b098, 0xe997bb, 0xe68fad, 0xe782ae, 0xe6ae8b, 0xe586ac,
  0xe6a1a5, 0xe5a687, 0xe8ada6, 0xe7bbbc, 0xe68b9b, 0xe590b4, 0xe4bb98, 0xe6b5ae,
  0xe981ad, 0xe5be90, 0xe682a8, 0xe69187, 0xe8b0b7, 0xe8b59e, 0xe7aeb1, 0xe99a94,
  0xe8aea2, 0xe794b7, 0xe590b9, 0xe59bad, 0xe7bab7, 0xe59490, 0xe8b4a5, 0xe5ae8b,
  0xe78ebb, 0xe5b7a8, 0xe88095, 0xe59da6, 0xe88da3, 0xe997ad, 0xe6b9be, 0xe994ae,
  0xe587a1, 0xe9a9bb, 0xe99485, 0xe69591, 0xe681a9, 0xe589a5, 0xe5879d, 0xe7a2b1,
  0xe9bdbf, 0xe688aa, 0xe782bc, 0xe9babb, 0xe7baba, 0xe7a681, 0xe5ba9f, 0xe79b9b,
  0xe78988, 0xe7bc93, 0xe58780, 0xe79d9b, 0xe6988c, 0xe5a99a, 0xe6b689, 0xe7ad92,
  0xe598b4, 0xe68f92, 0xe5b2b8, 0xe69c97, 0xe5ba84, 0xe8a197, 0xe8978f, 0xe5a791,
  0xe8b4b8, 0xe88590, 0xe5a5b4, 0xe595a6, 0xe683af, 0xe4b998, 0xe4bc99, 0xe681a2,
  0xe58c80, 0xe7bab1, 0xe6898e, 0xe8bea9, 0xe880b3, 0xe5bdaa, 0xe887a3, 0xe4babf,
  0xe79283, 0xe68ab5, 0xe88489, 0xe7a780, 0xe890a8, 0xe4bf84, 0xe7bd91, 0xe8889e,
  0xe5ba97, 0xe596b7, 0xe7bab5, 0xe5afb8, 0xe6b197, 0xe68c82, 0xe6b4aa, 0xe8b4ba,
  0xe997aa, 0xe69fac, 0xe78886, 0xe783af, 0xe6b4a5, 0xe7a8bb, 0xe5a299, 0xe8bdaf,
  0xe58b87, 0xe5838f, 0xe6bb9a, 0xe58e98, 0xe89299, 0xe88ab3, 0xe882af, 0xe59da1,
  0xe69fb1, 0xe88da1, 0xe885bf, 0xe4bbaa, 0xe69785, 0xe5b0be, 0xe8bda7, 0xe586b0]
private def zhHans10 : List Nat := [
  0xe8b4a1, 0xe799bb, 0xe9bb8e, 0xe5898a, 0xe992bb, 0xe58b92, 0xe98083, 0xe99a9c,
  0xe6b0a8, 0xe983ad, 0xe5b3b0, 0xe5b881, 0xe6b8af, 0xe4bc8f, 0xe8bda8, 0xe4baa9,
  0xe6af95, 0xe693a6, 0xe88eab, 0xe588ba, 0xe6b5aa, 0xe7a798, 0xe68fb4, 0xe6a0aa,
  0xe581a5, 0xe594ae, 0xe882a1, 0xe5b29b, 0xe79498, 0xe6b3a1, 0xe79da1, 0xe7aba5,
  0xe993b8, 0xe6b1a4, 0xe99880, 0xe4bc91, 0xe6b187, 0xe8888d, 0xe789a7, 0xe7bb95,
  0xe782b8, 0xe593b2, 0xe7a3b7, 0xe7bba9, 0xe69c8b, 0xe6b7a1, 0xe5b096, 0xe590af,
  0xe999b7, 0xe69fb4, 0xe59188, 0xe5be92, 0xe9a29c, 0xe6b3aa, 0xe7a88d, 0xe5bf98,
  0xe6b3b5, 0xe8939d, 0xe68b96, 0xe6b49e, 0xe68e88, 0xe9959c, 0xe8be9b, 0xe5a3ae,
  0xe9948b, 0xe8b4ab, 0xe8999a, 0xe5bcaf, 0xe691a9, 0xe6b3b0, 0xe5b9bc, 0xe5bbb7,
  0xe5b08a, 0xe7aa97, 0xe7bab2, 0xe5bc84, 0xe99ab6, 0xe79691, 0xe6b08f, 0xe5aeab,
  0xe5a790, 0xe99c87, 0xe7919e, 0xe680aa, 0xe5b0a4, 0xe790b4, 0xe5beaa, 0xe68f8f,
  0xe8869c, 0xe8bf9d, 0xe5a4b9, 0xe885b0, 0xe7bc98, 0xe78fa0, 0xe7a9b7, 0xe6a3ae,
  0xe69e9d, 0xe7abb9, 0xe6b29f, 0xe582ac, 0xe7bbb3, 0xe5bf86, 0xe982a6, 0xe589a9,
  0xe5b9b8, 0xe6b586, 0xe6a08f, 0xe68ba5, 0xe78999, 0xe8b4ae, 0xe7a4bc, 0xe6bba4,
  0xe992a0, 0xe7bab9, 0xe7bda2, 0xe68b8d, 0xe592b1, 0xe5968a, 0xe8a296, 0xe59f83,
  0xe58ba4, 0xe7bd9a, 0xe784a6, 0xe6bd9c, 0xe4bc8d, 0xe5a2a8, 0xe6acb2, 0xe7bc9d]
private def zhHans11 : List Nat := [
  0xe5a793, 0xe5888a, 0xe9a5b1, 0xe4bbbf, 0xe5a596, 0xe9939d, 0xe9acbc, 0xe4b8bd,
  0xe8b7a8, 0xe9bb98, 0xe68c96, 0xe993be, 0xe689ab, 0xe5969d, 0xe8a28b, 0xe782ad,
  0xe6b1a1, 0xe5b995, 0xe8afb8, 0xe5bca7, 0xe58ab1, 0xe6a285, 0xe5a5b6, 0xe6b481,
  0xe781be, 0xe8889f, 0xe989b4, 0xe88baf, 0xe8aebc, 0xe68ab1, 0xe6af81, 0xe68782,
  0xe5af92, 0xe699ba, 0xe59f94, 0xe5af84, 0xe5b18a, 0xe8b783, 0xe6b8a1, 0xe68c91,
  0xe4b8b9, 0xe889b0, 0xe8b49d, 0xe7a2b0, 0xe68b94, 0xe788b9, 0xe688b4, 0xe7a081,
  0xe6a2a6, 0xe88abd, 0xe78694, 0xe8b5a4, 0xe6b894, 0xe593ad, 0xe695ac, 0xe9a297,
  0xe5a594, 0xe99385, 0xe4bbb2, 0xe8998e, 0xe7a880, 0xe5a6b9, 0xe4b98f, 0xe78f8d,
  0xe794b3, 0xe6a18c, 0xe981b5, 0xe58581, 0xe99a86, 0xe89eba, 0xe4bb93, 0xe9ad8f,
  0xe99490, 0xe69993, 0xe6b0ae, 0xe585bc, 0xe99a90, 0xe7a28d, 0xe8b5ab, 0xe68ba8,
  0xe5bfa0, 0xe88283, 0xe7bcb8, 0xe789b5, 0xe68aa2, 0xe58d9a, 0xe5b7a7, 0xe5a3b3,
  0xe58584, 0xe69d9c, 0xe8aeaf, 0xe8af9a, 0xe7a2a7, 0xe7a5a5, 0xe69faf, 0xe9a1b5,
  0xe5b7a1, 0xe79fa9, 0xe682b2, 0xe7818c, 0xe9be84, 0xe4bca6, 0xe7a5a8, 0xe5afbb,
  0xe6a182, 0xe993ba, 0xe59ca3, 0xe68190, 0xe681b0, 0xe98391, 0xe8b6a3, 0xe68aac,
  0xe88d92, 0xe885be, 0xe8b4b4, 0xe69f94, 0xe6bbb4, 0xe78c9b, 0xe99894, 0xe8be86,
  0xe5a6bb, 0xe5a1ab, 0xe692a4, 0xe582a8, 0xe7adbe, 0xe997b9, 0xe689b0, 0xe7b4ab]
private def zhHans12 : List Nat := [
  0xe7a082, 0xe98092, 0xe6888f, 0xe5908a, 0xe999b6, 0xe4bc90, 0xe59682, 0xe79697,
  0xe793b6, 0xe5a986, 0xe68a9a, 0xe88782, 0xe691b8, 0xe5bf8d, 0xe899be, 0xe89ca1,
  0xe982bb, 0xe883b8, 0xe5b7a9, 0xe68ca4, 0xe581b6, 0xe5bc83, 0xe6a7bd, 0xe58ab2,
  0xe4b9b3, 0xe98293, 0xe59089, 0xe4bb81, 0xe78382, 0xe7a096, 0xe7a79f, 0xe4b98c,
  0xe888b0, 0xe4bcb4, 0xe7939c, 0xe6b585, 0xe4b899, 0xe69a82, 0xe787a5, 0xe6a9a1,
  0xe69fb3, 0xe8bfb7, 0xe69a96, 0xe7898c, 0xe7a7a7, 0xe88386, 0xe8afa6, 0xe7b0a7,
  0xe8b88f, 0xe793b7, 0xe8b0b1, 0xe59186, 0xe5aebe, 0xe7b38a, 0xe6b49b, 0xe8be89,
  0xe684a4, 0xe7ab9e, 0xe99a99, 0xe68092, 0xe7b298, 0xe4b983, 0xe7bbaa, 0xe882a9,
  0xe7b18d, 0xe6958f, 0xe6b682, 0xe78699, 0xe79a86, 0xe4bea6, 0xe682ac, 0xe68e98,
  0xe4baab, 0xe7baa0, 0xe98692, 0xe78b82, 0xe99481, 0xe6b780, 0xe681a8, 0xe789b2,
  0xe99cb8, 0xe788ac, 0xe8b58f, 0xe98086, 0xe78ea9, 0xe999b5, 0xe7a59d, 0xe7a792,
  0xe6b599, 0xe8b28c, 0xe5bdb9, 0xe5bdbc, 0xe68289, 0xe9b8ad, 0xe8b68b, 0xe587a4,
  0xe699a8, 0xe7959c, 0xe8be88, 0xe7a7a9, 0xe58db5, 0xe7bdb2, 0xe6a2af, 0xe7828e,
  0xe6bba9, 0xe6a38b, 0xe9a9b1, 0xe7ad9b, 0xe5b3a1, 0xe58692, 0xe595a5, 0xe5afbf,
  0xe8af91, 0xe6b5b8, 0xe6b389, 0xe5b8bd, 0xe8bf9f, 0xe7a185, 0xe79686, 0xe8b4b7,
  0xe6bc8f, 0xe7a8bf, 0xe586a0, 0xe5aba9, 0xe88381, 0xe88aaf, 0xe789a2, 0xe58f9b]
private def zhHans13 : List Nat := [
  0xe89a80, 0xe5a5a5, 0xe9b8a3, 0xe5b2ad, 0xe7be8a, 0xe587ad, 0xe4b8b2, 0xe5a198,
  0xe7bb98, 0xe985b5, 0xe89e8d, 0xe79b86, 0xe994a1, 0xe5ba99, 0xe7adb9, 0xe586bb,
  0xe8be85, 0xe69184, 0xe8a2ad, 0xe7ad8b, 0xe68b92, 0xe5839a, 0xe697b1, 0xe992be,
  0xe9b89f, 0xe6bc86, 0xe6b288, 0xe79c89, 0xe7968f, 0xe6b7bb, 0xe6a392, 0xe7a997,
  0xe7a19d, 0xe99fa9, 0xe980bc, 0xe689ad, 0xe4bea8, 0xe58789, 0xe68cba, 0xe7a297,
  0xe6a0bd, 0xe78292, 0xe69daf, 0xe682a3, 0xe9a68f, 0xe58a9d, 0xe8b1aa, 0xe8bebd,
  0xe58b83, 0xe9b8bf, 0xe697a6, 0xe5908f, 0xe68b9c, 0xe78b97, 0xe59f8b, 0xe8be8a,
  0xe68ea9, 0xe9a5ae, 0xe690ac, 0xe9aa82, 0xe8be9e, 0xe58bbe, 0xe689a3, 0xe4bcb0,
  0xe8928b, 0xe7bb92, 0xe99bbe, 0xe4b888, 0xe69cb5, 0xe5a786, 0xe68b9f, 0xe5ae87,
  0xe8be91, 0xe99995, 0xe99b95, 0xe581bf, 0xe89384, 0xe5b487, 0xe589aa, 0xe580a1,
  0xe58e85, 0xe592ac, 0xe9a9b6, 0xe896af, 0xe588b7, 0xe696a5, 0xe795aa, 0xe8b58b,
  0xe5a589, 0xe4bd9b, 0xe6b587, 0xe6bcab, 0xe69bbc, 0xe68987, 0xe99299, 0xe6a183,
  0xe689b6, 0xe4bb94, 0xe8bf94, 0xe4bf97, 0xe4ba8f, 0xe88594, 0xe99e8b, 0xe6a3b1,
  0xe8a686, 0xe6a186, 0xe68284, 0xe58f94, 0xe6929e, 0xe9aa97, 0xe58b98, 0xe697ba,
  0xe6b2b8, 0xe5ada4, 0xe59090, 0xe5ad9f, 0xe6b8a0, 0xe5b188, 0xe796be, 0xe5a699,
  0xe6839c, 0xe4bbb0, 0xe78ba0, 0xe88380, 0xe8b090, 0xe68a9b, 0xe99c89, 0xe6a191]
private def zhHans14 : List Nat := [
  0xe5b297, 0xe5989b, 0xe8a1b0, 0xe79b97, 0xe6b897, 0xe8848f, 0xe8b596, 0xe6b68c,
  0xe7949c, 0xe69bb9, 0xe99885, 0xe8828c, 0xe593a9, 0xe58e89, 0xe78383, 0xe7baac,
  0xe6af85, 0xe698a8, 0xe4bcaa, 0xe79787, 0xe785ae, 0xe58fb9, 0xe99289, 0xe690ad,
  0xe88c8e, 0xe7acbc, 0xe985b7, 0xe581b7, 0xe5bc93, 0xe994a5, 0xe68192, 0xe69db0,
  0xe59d91, 0xe9bcbb, 0xe7bfbc, 0xe7bab6, 0xe58f99, 0xe78bb1, 0xe980ae, 0xe7bd90,
  0xe7bb9c, 0xe6a39a, 0xe68a91, 0xe886a8, 0xe894ac, 0xe5afba, 0xe9aaa4, 0xe7a986,
  0xe586b6, 0xe69eaf, 0xe5868c, 0xe5b0b8, 0xe587b8, 0xe7bb85, 0xe59daf, 0xe789ba,
  0xe784b0, 0xe8bdb0, 0xe6aca3, 0xe6998b, 0xe798a6, 0xe5bea1, 0xe994ad, 0xe994a6,
  0xe4b8a7, 0xe697ac, 0xe994bb, 0xe59e84, 0xe6909c, 0xe68991, 0xe98280, 0xe4baad,
  0xe985af, 0xe8bf88, 0xe88892, 0xe88486, 0xe985b6, 0xe997b2, 0xe5bfa7, 0xe9859a,
  0xe9a1bd, 0xe7bebd, 0xe6b6a8, 0xe58db8, 0xe4bb97, 0xe999aa, 0xe8be9f, 0xe683a9,
  0xe69dad, 0xe5a79a, 0xe8829a, 0xe68d89, 0xe9a398, 0xe6bc82, 0xe69886, 0xe6acba,
  0xe590be, 0xe9838e, 0xe783b7, 0xe6b181, 0xe591b5, 0xe9a5b0, 0xe890a7, 0xe99b85,
  0xe982ae, 0xe8bf81, 0xe78795, 0xe69292, 0xe5a7bb, 0xe8b5b4, 0xe5aeb4, 0xe783a6,
  0xe580ba, 0xe5b890, 0xe69691, 0xe99383, 0xe697a8, 0xe98687, 0xe891a3, 0xe9a5bc,
  0xe99b8f, 0xe5a7bf, 0xe68b8c, 0xe58285, 0xe885b9, 0xe5a6a5, 0xe68f89, 0xe8b4a4]
private def zhHans15 : List Nat := [
  0xe68b86, 0xe6adaa, 0xe891a1, 0xe883ba, 0xe4b8a2, 0xe6b5a9, 0xe5bebd, 0xe69882,
  0xe59eab, 0xe68ca1, 0xe8a788, 0xe8b4aa, 0xe685b0, 0xe7bcb4, 0xe6b1aa, 0xe6858c,
  0xe586af, 0xe8afba, 0xe5a79c, 0xe8b08a, 0xe587b6, 0xe58aa3, 0xe8afac, 0xe88080,
  0xe6988f, 0xe8baba, 0xe79b88, 0xe9aa91, 0xe4b994, 0xe6baaa, 0xe4b89b, 0xe58da2,
  0xe68ab9, 0xe997b7, 0xe592a8, 0xe588ae, 0xe9a9be, 0xe7bc86, 0xe6829f, 0xe69198,
  0xe99392, 0xe68eb7, 0xe9a287, 0xe5b9bb, 0xe69f84, 0xe683a0, 0xe683a8, 0xe4bdb3,
  0xe4bb87, 0xe8858a, 0xe7aa9d, 0xe6b6a4, 0xe58991, 0xe79ea7, 0xe5a0a1, 0xe6b3bc,
  0xe891b1, 0xe7bda9, 0xe99c8d, 0xe68d9e, 0xe8838e, 0xe88b8d, 0xe6bba8, 0xe4bfa9,
  0xe68d85, 0xe6b998, 0xe7a08d, 0xe99c9e, 0xe982b5, 0xe89084, 0xe796af, 0xe6b7ae,
  0xe98182, 0xe7868a, 0xe7b2aa, 0xe78398, 0xe5aebf, 0xe6a1a3, 0xe68888, 0xe9a9b3,
  0xe5ab82, 0xe8a395, 0xe5be99, 0xe7aead, 0xe68d90, 0xe882a0, 0xe69291, 0xe69992,
  0xe8bea8, 0xe6aebf, 0xe88eb2, 0xe6918a, 0xe69085, 0xe985b1, 0xe5b18f, 0xe796ab,
  0xe59380, 0xe894a1, 0xe5a0b5, 0xe6b2ab, 0xe79ab1, 0xe79585, 0xe58fa0, 0xe99881,
  0xe88eb1, 0xe695b2, 0xe8be96, 0xe992a9, 0xe79795, 0xe59d9d, 0xe5b7b7, 0xe9a5bf,
  0xe7a5b8, 0xe4b898, 0xe78e84, 0xe6ba9c, 0xe69bb0, 0xe980bb, 0xe5bdad, 0xe5b09d,
  0xe58dbf, 0xe5a6a8, 0xe88987, 0xe5909e, 0xe99fa6, 0xe680a8, 0xe79fae, 0xe6ad87]

/-- Words 2048, src/words/catalogs/mnemonic.cpp:16469-18522. -/
def zhHans : List Nat :=
  (zhHans0 ++ (zhHans1 ++ (zhHans2 ++ (zhHans3 ++ (zhHans4 ++ (zhHans5 ++ (zhHans6 ++ (zhHans7 ++ (zhHans8 ++ (zhHans9 ++ (zhHans10 ++ (zhHans11 ++ (zhHans12 ++ (zhHans13 ++ (zhHans14 ++ (zhHans15))))))))))))))))

end Verif.Catalog
