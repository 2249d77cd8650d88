/-!
# The `zh_Hant` word list of src/words/catalogs/mnemonic.cpp:18524-20577 (generated by tools/gen_words.py)

Each word is the number its UTF-8 bytes spell, most significant byte first.
-/
namespace Verif.Catalog

private def zhHant0 : List Nat := [
  0xe79a84, 0xe4b880, 0xe698af, 0xe59ca8, 0xe4b88d, 0xe4ba86, 0xe69c89, 0xe5928c,
  0xe4baba, 0xe98099, 0xe4b8ad, 0xe5a4a7, 0xe782ba, 0xe4b88a, 0xe5808b, 0xe59c8b,
  0xe68891, 0xe4bba5, 0xe8a681, 0xe4bb96, 0xe69982, 0xe4be86, 0xe794a8, 0xe58091,
  0xe7949f, 0xe588b0, 0xe4bd9c, 0xe59cb0, 0xe696bc, 0xe587ba, 0xe5b0b1, 0xe58886,
  0xe5b08d, 0xe68890, 0xe69c83, 0xe58faf, 0xe4b8bb, 0xe799bc, 0xe5b9b4, 0xe58b95,
  0xe5908c, 0xe5b7a5, 0xe4b99f, 0xe883bd, 0xe4b88b, 0xe9818e, 0xe5ad90, 0xe8aaaa,
  0xe794a2, 0xe7a8ae, 0xe99da2, 0xe8808c, 0xe696b9, 0xe5be8c, 0xe5a49a, 0xe5ae9a,
  0xe8a18c, 0xe5adb8, 0xe6b395, 0xe68980, 0xe6b091, 0xe5be97, 0xe7b693, 0xe58d81,
  0xe4b889, 0xe4b98b, 0xe980b2, 0xe89197, 0xe7ad89, 0xe983a8, 0xe5baa6, 0xe5aeb6,
  0xe99bbb, 0xe58a9b, 0xe8a3a1, 0xe5a682, 0xe6b0b4, 0xe58c96, 0xe9ab98, 0xe887aa,
  0xe4ba8c, 0xe79086, 0xe8b5b7, 0xe5b08f, 0xe789a9, 0xe78fbe, 0xe5afa6, 0xe58aa0,
  0xe9878f, 0xe983bd, 0xe585a9, 0xe9ab94, 0xe588b6, 0xe6a99f, 0xe795b6, 0xe4bdbf,
  0xe9bb9e, 0xe5be9e, 0xe6a5ad, 0xe69cac, 0xe58ebb, 0xe68a8a, 0xe680a7, 0xe5a5bd,
  0xe68789, 0xe9968b, 0xe5ae83, 0xe59088, 0xe98284, 0xe59ba0, 0xe794b1, 0xe585b6,
  0xe4ba9b, 0xe784b6, 0xe5898d, 0xe5a496, 0xe5a4a9, 0xe694bf, 0xe59b9b, 0xe697a5,
  0xe982a3, 0xe7a4be, 0xe7bea9, 0xe4ba8b, 0xe5b9b3, 0xe5bda2, 0xe79bb8, 0xe585a8]
private def zhHant1 : List Nat := [
  0xe8a1a8, 0xe99693, 0xe6a8a3, 0xe88887, 0xe9979c, 0xe59084, 0xe9878d, 0xe696b0,
  0xe7b79a, 0xe585a7, 0xe695b8, 0xe6ada3, 0xe5bf83, 0xe58f8d, 0xe4bda0, 0xe6988e,
  0xe79c8b, 0xe58e9f, 0xe58f88, 0xe9babc, 0xe588a9, 0xe6af94, 0xe68896, 0xe4bd86,
  0xe8b3aa, 0xe6b0a3, 0xe7acac, 0xe59091, 0xe98193, 0xe591bd, 0xe6ada4, 0xe8ae8a,
  0xe6a29d, 0xe58faa, 0xe6b292, 0xe7b590, 0xe8a7a3, 0xe5958f, 0xe6848f, 0xe5bbba,
  0xe69c88, 0xe585ac, 0xe784a1, 0xe7b3bb, 0xe8bb8d, 0xe5be88, 0xe68385, 0xe88085,
  0xe69c80, 0xe7ab8b, 0xe4bba3, 0xe683b3, 0xe5b7b2, 0xe9809a, 0xe4b8a6, 0xe68f90,
  0xe79bb4, 0xe9a18c, 0xe9bba8, 0xe7a88b, 0xe5b195, 0xe4ba94, 0xe69e9c, 0xe69699,
  0xe8b1a1, 0xe593a1, 0xe99da9, 0xe4bd8d, 0xe585a5, 0xe5b8b8, 0xe69687, 0xe7b8bd,
  0xe6aca1, 0xe59381, 0xe5bc8f, 0xe6b4bb, 0xe8a8ad, 0xe58f8a, 0xe7aea1, 0xe789b9,
  0xe4bbb6, 0xe995b7, 0xe6b182, 0xe88081, 0xe9a0ad, 0xe59fba, 0xe8b387, 0xe9828a,
  0xe6b581, 0xe8b7af, 0xe7b49a, 0xe5b091, 0xe59c96, 0xe5b1b1, 0xe7b5b1, 0xe68ea5,
  0xe79fa5, 0xe8bc83, 0xe5b087, 0xe7b584, 0xe8a68b, 0xe8a888, 0xe588a5, 0xe5a5b9,
  0xe6898b, 0xe8a792, 0xe69c9f, 0xe6a0b9, 0xe8ab96, 0xe9818b, 0xe8beb2, 0xe68c87,
  0xe5b9be, 0xe4b99d, 0xe58d80, 0xe5bcb7, 0xe694be, 0xe6b1ba, 0xe8a5bf, 0xe8a2ab,
  0xe5b9b9, 0xe5819a, 0xe5bf85, 0xe688b0, 0xe58588, 0xe59b9e, 0xe58987, 0xe4bbbb]
private def zhHant2 : List Nat := [
  0xe58f96, 0xe6939a, 0xe89995, 0xe99a8a, 0xe58d97, 0xe7b5a6, 0xe889b2, 0xe58589,
  0xe99680, 0xe58db3, 0xe4bf9d, 0xe6b2bb, 0xe58c97, 0xe980a0, 0xe799be, 0xe8a68f,
  0xe786b1, 0xe9a098, 0xe4b883, 0xe6b5b7, 0xe58fa3, 0xe69db1, 0xe5b08e, 0xe599a8,
  0xe5a393, 0xe5bf97, 0xe4b896, 0xe98791, 0xe5a29e, 0xe788ad, 0xe6bf9f, 0xe99a8e,
  0xe6b2b9, 0xe6809d, 0xe8a193, 0xe6a5b5, 0xe4baa4, 0xe58f97, 0xe881af, 0xe4bb80,
  0xe8aa8d, 0xe585ad, 0xe585b1, 0xe6ac8a, 0xe694b6, 0xe8ad89, 0xe694b9, 0xe6b885,
  0xe7be8e, 0xe5868d, 0xe68ea1, 0xe8bd89, 0xe69bb4, 0xe596ae, 0xe9a2a8, 0xe58887,
  0xe68993, 0xe799bd, 0xe69599, 0xe9809f, 0xe88ab1, 0xe5b8b6, 0xe5ae89, 0xe5a0b4,
  0xe8baab, 0xe8bb8a, 0xe4be8b, 0xe79c9f, 0xe58b99, 0xe585b7, 0xe890ac, 0xe6af8f,
  0xe79bae, 0xe887b3, 0xe98194, 0xe8b5b0, 0xe7a98d, 0xe7a4ba, 0xe8adb0, 0xe881b2,
  0xe5a0b1, 0xe9aca5, 0xe5ae8c, 0xe9a19e, 0xe585ab, 0xe99ba2, 0xe88faf, 0xe5908d,
  0xe7a2ba, 0xe6898d, 0xe7a791, 0xe5bcb5, 0xe4bfa1, 0xe9a6ac, 0xe7af80, 0xe8a9b1,
  0xe7b1b3, 0xe695b4, 0xe7a9ba, 0xe58583, 0xe6b381, 0xe4bb8a, 0xe99b86, 0xe6baab,
  0xe582b3, 0xe59c9f, 0xe8a8b1, 0xe6ada5, 0xe7bea4, 0xe5bba3, 0xe79fb3, 0xe8a898,
  0xe99c80, 0xe6aeb5, 0xe7a094, 0xe7958c, 0xe68b89, 0xe69e97, 0xe5be8b, 0xe58fab,
  0xe4b894, 0xe7a9b6, 0xe8a780, 0xe8b68a, 0xe7b994, 0xe8a39d, 0xe5bdb1, 0xe7ae97]
private def zhHant3 : List Nat := [
  0xe4bd8e, 0xe68c81, 0xe99fb3, 0xe79cbe, 0xe69bb8, 0xe5b883, 0xe5a48d, 0xe5aeb9,
  0xe58592, 0xe9a088, 0xe99a9b, 0xe59586, 0xe99d9e, 0xe9a997, 0xe980a3, 0xe696b7,
  0xe6b7b1, 0xe99ba3, 0xe8bf91, 0xe7a4a6, 0xe58d83, 0xe980b1, 0xe5a794, 0xe7b4a0,
  0xe68a80, 0xe58299, 0xe58d8a, 0xe8bea6, 0xe99d92, 0xe79c81, 0xe58897, 0xe7bf92,
  0xe99fbf, 0xe7b484, 0xe694af, 0xe888ac, 0xe58fb2, 0xe6849f, 0xe58b9e, 0xe4bebf,
  0xe59c98, 0xe5be80, 0xe985b8, 0xe6adb7, 0xe5b882, 0xe5858b, 0xe4bd95, 0xe999a4,
  0xe6b688, 0xe6a78b, 0xe5ba9c, 0xe7a8b1, 0xe5a4aa, 0xe6ba96, 0xe7b2be, 0xe580bc,
  0xe8999f, 0xe78e87, 0xe6978f, 0xe7b6ad, 0xe58a83, 0xe981b8, 0xe6a899, 0xe5afab,
  0xe5ad98, 0xe58099, 0xe6af9b, 0xe8a6aa, 0xe5bfab, 0xe69588, 0xe696af, 0xe999a2,
  0xe69fa5, 0xe6b19f, 0xe59e8b, 0xe79cbc, 0xe78e8b, 0xe68c89, 0xe6a0bc, 0xe9a48a,
  0xe69893, 0xe7bdae, 0xe6b4be, 0xe5b1a4, 0xe78987, 0xe5a78b, 0xe58dbb, 0xe5b088,
  0xe78b80, 0xe882b2, 0xe5bba0, 0xe4baac, 0xe8ad98, 0xe981a9, 0xe5b1ac, 0xe59c93,
  0xe58c85, 0xe781ab, 0xe4bd8f, 0xe8aabf, 0xe6bbbf, 0xe7b8a3, 0xe5b180, 0xe785a7,
  0xe58f83, 0xe7b485, 0xe7b4b0, 0xe5bc95, 0xe881bd, 0xe8a9b2, 0xe990b5, 0xe583b9,
  0xe59ab4, 0xe9a696, 0xe5ba95, 0xe6b6b2, 0xe5ae98, 0xe5beb7, 0xe99aa8, 0xe79785,
  0xe89887, 0xe5a4b1, 0xe788be, 0xe6adbb, 0xe8ac9b, 0xe9858d, 0xe5a5b3, 0xe9bb83]
private def zhHant4 : List Nat := [
  0xe68ea8, 0xe9a1af, 0xe8ab87, 0xe7bdaa, 0xe7a59e, 0xe8979d, 0xe591a2, 0xe5b8ad,
  0xe590ab, 0xe4bc81, 0xe69c9b, 0xe5af86, 0xe689b9, 0xe7879f, 0xe9a085, 0xe998b2,
  0xe88889, 0xe79083, 0xe88bb1, 0xe6b0a7, 0xe58ba2, 0xe5918a, 0xe69d8e, 0xe58fb0,
  0xe890bd, 0xe69ca8, 0xe5b9ab, 0xe8bcaa, 0xe7a0b4, 0xe4ba9e, 0xe5b8ab, 0xe59c8d,
  0xe6b3a8, 0xe981a0, 0xe5ad97, 0xe69d90, 0xe68e92, 0xe4be9b, 0xe6b2b3, 0xe6858b,
  0xe5b081, 0xe58fa6, 0xe696bd, 0xe6b89b, 0xe6a8b9, 0xe6bab6, 0xe6808e, 0xe6ada2,
  0xe6a188, 0xe8a880, 0xe5a3ab, 0xe59d87, 0xe6ada6, 0xe59bba, 0xe89189, 0xe9ad9a,
  0xe6b3a2, 0xe8a696, 0xe58385, 0xe8b2bb, 0xe7b78a, 0xe6849b, 0xe5b7a6, 0xe7aba0,
  0xe697a9, 0xe69c9d, 0xe5aeb3, 0xe7ba8c, 0xe8bc95, 0xe69c8d, 0xe8a9a6, 0xe9a39f,
  0xe58585, 0xe585b5, 0xe6ba90, 0xe588a4, 0xe8adb7, 0xe58fb8, 0xe8b6b3, 0xe69f90,
  0xe7b7b4, 0xe5b7ae, 0xe887b4, 0xe69dbf, 0xe794b0, 0xe9998d, 0xe9bb91, 0xe78aaf,
  0xe8b2a0, 0xe6938a, 0xe88c83, 0xe7b9bc, 0xe88888, 0xe4bcbc, 0xe9a498, 0xe5a085,
  0xe69bb2, 0xe8bcb8, 0xe4bfae, 0xe69585, 0xe59f8e, 0xe5a4ab, 0xe5a4a0, 0xe98081,
  0xe7ad86, 0xe888b9, 0xe4bd94, 0xe58fb3, 0xe8b2a1, 0xe59083, 0xe5af8c, 0xe698a5,
  0xe881b7, 0xe8a6ba, 0xe6bca2, 0xe795ab, 0xe58a9f, 0xe5b7b4, 0xe8b79f, 0xe99b96,
  0xe99b9c, 0xe9a39b, 0xe6aaa2, 0xe590b8, 0xe58aa9, 0xe69887, 0xe999bd, 0xe4ba92]
private def zhHant5 : List Nat := [
  0xe5889d, 0xe589b5, 0xe68a97, 0xe88083, 0xe68a95, 0xe5a39e, 0xe7ad96, 0xe58fa4,
  0xe5be91, 0xe68f9b, 0xe69caa, 0xe8b791, 0xe79599, 0xe98bbc, 0xe69bbe, 0xe7abaf,
  0xe8b2ac, 0xe7ab99, 0xe7b0a1, 0xe8bfb0, 0xe98ca2, 0xe589af, 0xe79ba1, 0xe5b89d,
  0xe5b084, 0xe88d89, 0xe8a19d, 0xe689bf, 0xe78da8, 0xe4bba4, 0xe99990, 0xe998bf,
  0xe5aea3, 0xe792b0, 0xe99b99, 0xe8ab8b, 0xe8b685, 0xe5beae, 0xe8ae93, 0xe68ea7,
  0xe5b79e, 0xe889af, 0xe8bbb8, 0xe689be, 0xe590a6, 0xe7b480, 0xe79b8a, 0xe4be9d,
  0xe584aa, 0xe9a082, 0xe7a48e, 0xe8bc89, 0xe58092, 0xe688bf, 0xe7aa81, 0xe59d90,
  0xe7b289, 0xe695b5, 0xe795a5, 0xe5aea2, 0xe8a281, 0xe586b7, 0xe58b9d, 0xe7b595,
  0xe69e90, 0xe5a18a, 0xe58a91, 0xe6b8ac, 0xe7b5b2, 0xe58d94, 0xe8a8b4, 0xe5bfb5,
  0xe999b3, 0xe4bb8d, 0xe7be85, 0xe9b9bd, 0xe58f8b, 0xe6b48b, 0xe98caf, 0xe88ba6,
  0xe5a49c, 0xe58891, 0xe7a7bb, 0xe9a0bb, 0xe98090, 0xe99da0, 0xe6b7b7, 0xe6af8d,
  0xe79fad, 0xe79aae, 0xe7b582, 0xe8819a, 0xe6b1bd, 0xe69d91, 0xe99bb2, 0xe593aa,
  0xe697a2, 0xe8b79d, 0xe8a19b, 0xe5819c, 0xe78388, 0xe5a4ae, 0xe5af9f, 0xe78792,
  0xe8bf85, 0xe5a283, 0xe88ba5, 0xe58db0, 0xe6b4b2, 0xe588bb, 0xe68bac, 0xe6bf80,
  0xe5ad94, 0xe6909e, 0xe7949a, 0xe5aea4, 0xe5be85, 0xe6a0b8, 0xe6a0a1, 0xe695a3,
  0xe4beb5, 0xe590a7, 0xe794b2, 0xe9818a, 0xe4b985, 0xe88f9c, 0xe591b3, 0xe8888a]
private def zhHant6 : List Nat := [
  0xe6a8a1, 0xe6b996, 0xe8b2a8, 0xe6908d, 0xe9a090, 0xe998bb, 0xe6afab, 0xe699ae,
  0xe7a9a9, 0xe4b999, 0xe5aabd, 0xe6a48d, 0xe681af, 0xe693b4, 0xe98a80, 0xe8aa9e,
  0xe68fae, 0xe98592, 0xe5ae88, 0xe68bbf, 0xe5ba8f, 0xe7b499, 0xe986ab, 0xe7bcba,
  0xe99ba8, 0xe5978e, 0xe9879d, 0xe58a89, 0xe5958a, 0xe680a5, 0xe594b1, 0xe8aaa4,
  0xe8a893, 0xe9a198, 0xe5afa9, 0xe99984, 0xe78db2, 0xe88cb6, 0xe9aeae, 0xe7b3a7,
  0xe696a4, 0xe5ada9, 0xe884ab, 0xe7a1ab, 0xe882a5, 0xe59684, 0xe9be8d, 0xe6bc94,
  0xe788b6, 0xe6bcb8, 0xe8a180, 0xe6ada1, 0xe6a2b0, 0xe68e8c, 0xe6ad8c, 0xe6b299,
  0xe5899b, 0xe694bb, 0xe8ac82, 0xe79bbe, 0xe8a88e, 0xe6999a, 0xe7b292, 0xe4ba82,
  0xe78783, 0xe79f9b, 0xe4b98e, 0xe6aeba, 0xe897a5, 0xe5afa7, 0xe9adaf, 0xe8b2b4,
  0xe99098, 0xe785a4, 0xe8ae80, 0xe78fad, 0xe4bcaf, 0xe9a699, 0xe4bb8b, 0xe8bfab,
  0xe58fa5, 0xe8b190, 0xe59fb9, 0xe68fa1, 0xe898ad, 0xe69394, 0xe5bca6, 0xe89b8b,
  0xe6b289, 0xe58187, 0xe7a9bf, 0xe59fb7, 0xe7ad94, 0xe6a882, 0xe8aab0, 0xe9a086,
  0xe78599, 0xe7b8ae, 0xe5beb5, 0xe88789, 0xe5969c, 0xe69dbe, 0xe885b3, 0xe59bb0,
  0xe795b0, 0xe5858d, 0xe8838c, 0xe6989f, 0xe7a68f, 0xe8b2b7, 0xe69f93, 0xe4ba95,
  0xe6a682, 0xe685a2, 0xe68095, 0xe7a381, 0xe5808d, 0xe7a596, 0xe79a87, 0xe4bf83,
  0xe99d9c, 0xe8a39c, 0xe8a995, 0xe7bfbb, 0xe88289, 0xe8b890, 0xe5b0bc, 0xe8a1a3]
private def zhHant7 : List Nat := [
  0xe5afac, 0xe68f9a, 0xe6a389, 0xe5b88c, 0xe582b7, 0xe6938d, 0xe59e82, 0xe7a78b,
  0xe5ae9c, 0xe6b0ab, 0xe5a597, 0xe79da3, 0xe68caf, 0xe69eb6, 0xe4baae, 0xe69cab,
  0xe686b2, 0xe685b6, 0xe7b7a8, 0xe7899b, 0xe8a7b8, 0xe698a0, 0xe99bb7, 0xe98ab7,
  0xe8a9a9, 0xe5baa7, 0xe5b185, 0xe68a93, 0xe8a382, 0xe8839e, 0xe591bc, 0xe5a898,
  0xe699af, 0xe5a881, 0xe7b6a0, 0xe699b6, 0xe58e9a, 0xe79b9f, 0xe8a1a1, 0xe99b9e,
  0xe5adab, 0xe5bbb6, 0xe58db1, 0xe886a0, 0xe5b18b, 0xe98489, 0xe887a8, 0xe999b8,
  0xe9a1a7, 0xe68e89, 0xe59180, 0xe78788, 0xe6adb2, 0xe68eaa, 0xe69d9f, 0xe88090,
  0xe58a87, 0xe78e89, 0xe8b699, 0xe8b7b3, 0xe593a5, 0xe5ada3, 0xe8aab2, 0xe587b1,
  0xe883a1, 0xe9a18d, 0xe6acbe, 0xe7b4b9, 0xe58db7, 0xe9bd8a, 0xe58189, 0xe892b8,
  0xe6ae96, 0xe6b0b8, 0xe5ae97, 0xe88b97, 0xe5b79d, 0xe78890, 0xe5b2a9, 0xe5bcb1,
  0xe99bb6, 0xe6a58a, 0xe5a58f, 0xe6b2bf, 0xe99cb2, 0xe6a1bf, 0xe68ea2, 0xe6bb91,
  0xe98eae, 0xe9a3af, 0xe6bf83, 0xe888aa, 0xe687b7, 0xe8b695, 0xe5baab, 0xe5a5aa,
  0xe4bc8a, 0xe99d88, 0xe7a885, 0xe98094, 0xe6bb85, 0xe8b3bd, 0xe6adb8, 0xe58fac,
  0xe9bc93, 0xe692ad, 0xe79ba4, 0xe8a381, 0xe99aaa, 0xe5bab7, 0xe594af, 0xe98c84,
  0xe88f8c, 0xe7b494, 0xe5809f, 0xe7b396, 0xe8938b, 0xe6a9ab, 0xe7aca6, 0xe7a781,
  0xe58aaa, 0xe5a082, 0xe59f9f, 0xe6a78d, 0xe6bda4, 0xe5b985, 0xe59388, 0xe7ab9f]
private def zhHant8 : List Nat := [
  0xe7869f, 0xe89fb2, 0xe6bea4, 0xe885a6, 0xe5a3a4, 0xe7a2b3, 0xe6ad90, 0xe9818d,
  0xe581b4, 0xe5afa8, 0xe695a2, 0xe5beb9, 0xe685ae, 0xe6969c, 0xe89684, 0xe5baad,
  0xe7b48d, 0xe5bd88, 0xe9a3bc, 0xe4bcb8, 0xe68a98, 0xe9baa5, 0xe6bf95, 0xe69a97,
  0xe88db7, 0xe793a6, 0xe5a19e, 0xe5ba8a, 0xe7af89, 0xe683a1, 0xe688b6, 0xe8a8aa,
  0xe5a194, 0xe5a587, 0xe9808f, 0xe6a281, 0xe58880, 0xe6978b, 0xe8b7a1, 0xe58da1,
  0xe6b0af, 0xe98187, 0xe4bbbd, 0xe6af92, 0xe6b3a5, 0xe98080, 0xe6b497, 0xe693ba,
  0xe781b0, 0xe5bda9, 0xe8b3a3, 0xe88097, 0xe5a48f, 0xe69387, 0xe5bf99, 0xe98a85,
  0xe78dbb, 0xe7a1ac, 0xe4ba88, 0xe7b981, 0xe59c88, 0xe99baa, 0xe587bd, 0xe4baa6,
  0xe68abd, 0xe7af87, 0xe999a3, 0xe999b0, 0xe4b881, 0xe5b0ba, 0xe8bfbd, 0xe5a086,
  0xe99b84, 0xe8bf8e, 0xe6b39b, 0xe788b8, 0xe6a893, 0xe981bf, 0xe8ac80, 0xe599b8,
  0xe9878e, 0xe8b1ac, 0xe69797, 0xe7b4af, 0xe5818f, 0xe585b8, 0xe9a4a8, 0xe7b4a2,
  0xe7a7a6, 0xe88482, 0xe6bdae, 0xe788ba, 0xe8b186, 0xe5bfbd, 0xe68998, 0xe9a99a,
  0xe5a191, 0xe981ba, 0xe68488, 0xe69cb1, 0xe69bbf, 0xe7ba96, 0xe7b297, 0xe582be,
  0xe5b09a, 0xe7979b, 0xe6a59a, 0xe8ac9d, 0xe5a5ae, 0xe8b3bc, 0xe7a3a8, 0xe5909b,
  0xe6b1a0, 0xe69781, 0xe7a28e, 0xe9aaa8, 0xe79ba3, 0xe68d95, 0xe5bc9f, 0xe69ab4,
  0xe589b2, 0xe8b2ab, 0xe6ae8a, 0xe9878b, 0xe8a99e, 0xe4baa1, 0xe5a381, 0xe9a093]
private def zhHant9 : List Nat := [
  0xe5afb6, 0xe58d88, 0xe5a1b5, 0xe8819e, 0xe68fad, 0xe782ae, 0xe6ae98, 0xe586ac,
  0xe6a98b, 0xe5a9a6, 0xe8ada6, 0xe7b69c, 0xe68b9b, 0xe590b3, 0xe4bb98, 0xe6b5ae,
  0xe981ad, 0xe5be90, 0xe682a8, 0xe69096, 0xe8b0b7, 0xe8b48a, 0xe7aeb1, 0xe99a94,
  0xe8a882, 0xe794b7, 0xe590b9, 0xe59c92, 0xe7b49b, 0xe59490, 0xe69597, 0xe5ae8b,
  0xe78ebb, 0xe5b7a8, 0xe88095, 0xe59da6, 0xe6a6ae, 0xe99689, 0xe781a3, 0xe98db5,
  0xe587a1, 0xe9a790, 0xe98d8b, 0xe69591, 0xe681a9, 0xe5899d, 0xe5879d, 0xe9b9bc,
  0xe9bd92, 0xe688aa, 0xe78589, 0xe9babb, 0xe7b4a1, 0xe7a681, 0xe5bba2, 0xe79b9b,
  0xe78988, 0xe7b7a9, 0xe6b7a8, 0xe79d9b, 0xe6988c, 0xe5a99a, 0xe6b689, 0xe7ad92,
  0xe598b4, 0xe68f92, 0xe5b2b8, 0xe69c97, 0xe88e8a, 0xe8a197, 0xe8978f, 0xe5a791,
  0xe8b2bf, 0xe88590, 0xe5a5b4, 0xe595a6, 0xe685a3, 0xe4b998, 0xe5a4a5, 0xe681a2,
  0xe58bbb, 0xe7b497, 0xe6898e, 0xe8beaf, 0xe880b3, 0xe5bdaa, 0xe887a3, 0xe58484,
  0xe79283, 0xe68ab5, 0xe88488, 0xe7a780, 0xe896a9, 0xe4bf84, 0xe7b6b2, 0xe8889e,
  0xe5ba97, 0xe599b4, 0xe7b8b1, 0xe5afb8, 0xe6b197, 0xe68e9b, 0xe6b4aa, 0xe8b380,
  0xe99683, 0xe69fac, 0xe78886, 0xe783af, 0xe6b4a5, 0xe7a8bb, 0xe78986, 0xe8bb9f,
  0xe58b87, 0xe5838f, 0xe6bbbe, 0xe58e98, 0xe89299, 0xe88ab3, 0xe882af, 0xe59da1,
  0xe69fb1, 0xe79baa, 0xe885bf, 0xe58480, 0xe69785, 0xe5b0be, 0xe8bb8b, 0xe586b0]
private def zhHant10 : List Nat := [
  0xe8b2a2, 0xe799bb, 0xe9bb8e, 0xe5898a, 0xe991bd, 0xe58b92, 0xe98083, 0xe99a9c,
  0xe6b0a8, 0xe983ad, 0xe5b3b0, 0xe5b9a3, 0xe6b8af, 0xe4bc8f, 0xe8bb8c, 0xe7959d,
  0xe795a2, 0xe693a6, 0xe88eab, 0xe588ba, 0xe6b5aa, 0xe7a798, 0xe68fb4, 0xe6a0aa,
  0xe581a5, 0xe594ae, 0xe882a1, 0xe5b3b6, 0xe79498, 0xe6b3a1, 0xe79da1, 0xe7aba5,
  0xe99184, 0xe6b9af, 0xe996a5, 0xe4bc91, 0xe58caf, 0xe8888d, 0xe789a7, 0xe7b99e,
  0xe782b8, 0xe593b2, 0xe7a3b7, 0xe7b8be, 0xe69c8b, 0xe6b7a1, 0xe5b096, 0xe5959f,
  0xe999b7, 0xe69fb4, 0xe59188, 0xe5be92, 0xe9a18f, 0xe6b79a, 0xe7a88d, 0xe5bf98,
  0xe6b3b5, 0xe8978d, 0xe68b96, 0xe6b49e, 0xe68e88, 0xe98fa1, 0xe8be9b, 0xe5a3af,
  0xe98b92, 0xe8b2a7, 0xe8999b, 0xe5bd8e, 0xe691a9, 0xe6b3b0, 0xe5b9bc, 0xe5bbb7,
  0xe5b08a, 0xe7aa97, 0xe7b6b1, 0xe5bc84, 0xe99ab8, 0xe79691, 0xe6b08f, 0xe5aeae,
  0xe5a790, 0xe99c87, 0xe7919e, 0xe680aa, 0xe5b0a4, 0xe790b4, 0xe5beaa, 0xe68f8f,
  0xe8869c, 0xe98195, 0xe5a4be, 0xe885b0, 0xe7b7a3, 0xe78fa0, 0xe7aaae, 0xe6a3ae,
  0xe69e9d, 0xe7abb9, 0xe6ba9d, 0xe582ac, 0xe7b9a9, 0xe686b6, 0xe982a6, 0xe589a9,
  0xe5b9b8, 0xe6bcbf, 0xe6ac84, 0xe69381, 0xe78999, 0xe8b2af, 0xe7a6ae, 0xe6bfbe,
  0xe98889, 0xe7b48b, 0xe7bdb7, 0xe68b8d, 0xe592b1, 0xe5968a, 0xe8a296, 0xe59f83,
  0xe58ba4, 0xe7bdb0, 0xe784a6, 0xe6bd9b, 0xe4bc8d, 0xe5a2a8, 0xe6acb2, 0xe7b8ab]
private def zhHant11 : List Nat := [
  0xe5a793, 0xe5888a, 0xe9a3bd, 0xe4bbbf, 0xe78d8e, 0xe98b81, 0xe9acbc, 0xe9ba97,
  0xe8b7a8, 0xe9bb98, 0xe68c96, 0xe98f88, 0xe68e83, 0xe5969d, 0xe8a28b, 0xe782ad,
  0xe6b1a1, 0xe5b995, 0xe8abb8, 0xe5bca7, 0xe58bb5, 0xe6a285, 0xe5a5b6, 0xe6bd94,
  0xe781bd, 0xe8889f, 0xe99191, 0xe88baf, 0xe8a89f, 0xe68ab1, 0xe6af80, 0xe68782,
  0xe5af92, 0xe699ba, 0xe59f94, 0xe5af84, 0xe5b186, 0xe8ba8d, 0xe6b8a1, 0xe68c91,
  0xe4b8b9, 0xe889b1, 0xe8b29d, 0xe7a2b0, 0xe68b94, 0xe788b9, 0xe688b4, 0xe7a2bc,
  0xe5a4a2, 0xe88abd, 0xe78694, 0xe8b5a4, 0xe6bc81, 0xe593ad, 0xe695ac, 0xe9a186,
  0xe5a594, 0xe9899b, 0xe4bbb2, 0xe8998e, 0xe7a880, 0xe5a6b9, 0xe4b98f, 0xe78f8d,
  0xe794b3, 0xe6a18c, 0xe981b5, 0xe58581, 0xe99a86, 0xe89eba, 0xe58089, 0xe9ad8f,
  0xe98ab3, 0xe69b89, 0xe6b0ae, 0xe585bc, 0xe99ab1, 0xe7a499, 0xe8b5ab, 0xe692a5,
  0xe5bfa0, 0xe88285, 0xe7bcb8, 0xe789bd, 0xe690b6, 0xe58d9a, 0xe5b7a7, 0xe6aebc,
  0xe58584, 0xe69d9c, 0xe8a88a, 0xe8aaa0, 0xe7a2a7, 0xe7a5a5, 0xe69faf, 0xe9a081,
  0xe5b7a1, 0xe79fa9, 0xe682b2, 0xe7818c, 0xe9bda1, 0xe580ab, 0xe7a5a8, 0xe5b08b,
  0xe6a182, 0xe98baa, 0xe88196, 0xe68190, 0xe681b0, 0xe984ad, 0xe8b6a3, 0xe68aac,
  0xe88d92, 0xe9a8b0, 0xe8b2bc, 0xe69f94, 0xe6bbb4, 0xe78c9b, 0xe9978a, 0xe8bc9b,
  0xe5a6bb, 0xe5a1ab, 0xe692a4, 0xe584b2, 0xe7b0bd, 0xe9aca7, 0xe693be, 0xe7b4ab]
private def zhHant12 : List Nat := [
  0xe7a082, 0xe9819e, 0xe688b2, 0xe5908a, 0xe999b6, 0xe4bc90, 0xe9a4b5, 0xe79982,
  0xe793b6, 0xe5a986, 0xe692ab, 0xe88782, 0xe691b8, 0xe5bf8d, 0xe89da6, 0xe8a09f,
  0xe984b0, 0xe883b8, 0xe99e8f, 0xe693a0, 0xe581b6, 0xe6a384, 0xe6a7bd, 0xe58b81,
  0xe4b9b3, 0xe984a7, 0xe59089, 0xe4bb81, 0xe7889b, 0xe7a39a, 0xe7a79f, 0xe7838f,
  0xe889a6, 0xe4bcb4, 0xe7939c, 0xe6b7ba, 0xe4b899, 0xe69aab, 0xe787a5, 0xe6a9a1,
  0xe69fb3, 0xe8bfb7, 0xe69a96, 0xe7898c, 0xe7a7a7, 0xe886bd, 0xe8a9b3, 0xe7b0a7,
  0xe8b88f, 0xe793b7, 0xe8ad9c, 0xe59186, 0xe8b393, 0xe7b38a, 0xe6b49b, 0xe8bc9d,
  0xe686a4, 0xe7abb6, 0xe99a99, 0xe68092, 0xe7b298, 0xe4b983, 0xe7b792, 0xe882a9,
  0xe7b18d, 0xe6958f, 0xe5a197, 0xe78699, 0xe79a86, 0xe581b5, 0xe687b8, 0xe68e98,
  0xe4baab, 0xe7b3be, 0xe98692, 0xe78b82, 0xe98e96, 0xe6b780, 0xe681a8, 0xe789b2,
  0xe99cb8, 0xe788ac, 0xe8b39e, 0xe98086, 0xe78ea9, 0xe999b5, 0xe7a59d, 0xe7a792,
  0xe6b599, 0xe8b28c, 0xe5bdb9, 0xe5bdbc, 0xe68289, 0xe9b4a8, 0xe8b6a8, 0xe9b3b3,
  0xe699a8, 0xe7959c, 0xe8bca9, 0xe7a7a9, 0xe58db5, 0xe7bdb2, 0xe6a2af, 0xe7828e,
  0xe78198, 0xe6a38b, 0xe9a985, 0xe7afa9, 0xe5b3bd, 0xe58692, 0xe595a5, 0xe5a3bd,
  0xe8adaf, 0xe6b5b8, 0xe6b389, 0xe5b8bd, 0xe981b2, 0xe79fbd, 0xe79686, 0xe8b2b8,
  0xe6bc8f, 0xe7a8bf, 0xe586a0, 0xe5aba9, 0xe88485, 0xe88aaf, 0xe789a2, 0xe58f9b]
private def zhHant13 : List Nat := [
  0xe89d95, 0xe5a5a7, 0xe9b3b4, 0xe5b6ba, 0xe7be8a, 0xe68691, 0xe4b8b2, 0xe5a198,
  0xe7b9aa, 0xe985b5, 0xe89e8d, 0xe79b86, 0xe98cab, 0xe5bb9f, 0xe7b18c, 0xe5878d,
  0xe8bc94, 0xe6949d, 0xe8a5b2, 0xe7ad8b, 0xe68b92, 0xe5839a, 0xe697b1, 0xe98980,
  0xe9b3a5, 0xe6bc86, 0xe6b288, 0xe79c89, 0xe7968f, 0xe6b7bb, 0xe6a392, 0xe7a997,
  0xe7a19d, 0xe99f93, 0xe980bc, 0xe689ad, 0xe58391, 0xe6b6bc, 0xe68cba, 0xe7a297,
  0xe6a0bd, 0xe78292, 0xe69daf, 0xe682a3, 0xe9a4be, 0xe58bb8, 0xe8b1aa, 0xe981bc,
  0xe58b83, 0xe9b4bb, 0xe697a6, 0xe5908f, 0xe68b9c, 0xe78b97, 0xe59f8b, 0xe8bca5,
  0xe68ea9, 0xe9a3b2, 0xe690ac, 0xe7bdb5, 0xe8bead, 0xe58bbe, 0xe689a3, 0xe4bcb0,
  0xe894a3, 0xe7b5a8, 0xe99ca7, 0xe4b888, 0xe69cb5, 0xe5a786, 0xe693ac, 0xe5ae87,
  0xe8bcaf, 0xe9999d, 0xe99b95, 0xe5849f, 0xe89384, 0xe5b487, 0xe589aa, 0xe580a1,
  0xe5bbb3, 0xe592ac, 0xe9a79b, 0xe896af, 0xe588b7, 0xe696a5, 0xe795aa, 0xe8b3a6,
  0xe5a589, 0xe4bd9b, 0xe6be86, 0xe6bcab, 0xe69bbc, 0xe68987, 0xe988a3, 0xe6a183,
  0xe689b6, 0xe4bb94, 0xe8bf94, 0xe4bf97, 0xe899a7, 0xe88594, 0xe99e8b, 0xe6a3b1,
  0xe8a686, 0xe6a186, 0xe68284, 0xe58f94, 0xe6929e, 0xe9a899, 0xe58b98, 0xe697ba,
  0xe6b2b8, 0xe5ada4, 0xe59090, 0xe5ad9f, 0xe6b8a0, 0xe5b188, 0xe796be, 0xe5a699,
  0xe6839c, 0xe4bbb0, 0xe78ba0, 0xe884b9, 0xe8aba7, 0xe68b8b, 0xe9bbb4, 0xe6a191]
private def zhHant14 : List Nat := [
  0xe5b497, 0xe5989b, 0xe8a1b0, 0xe79b9c, 0xe6bbb2, 0xe8879f, 0xe8b3b4, 0xe6b9a7,
  0xe7949c, 0xe69bb9, 0xe996b1, 0xe8828c, 0xe593a9, 0xe58eb2, 0xe783b4, 0xe7b7af,
  0xe6af85, 0xe698a8, 0xe581bd, 0xe79787, 0xe785ae, 0xe59886, 0xe98798, 0xe690ad,
  0xe88e96, 0xe7b1a0, 0xe985b7, 0xe581b7, 0xe5bc93, 0xe98c90, 0xe68186, 0xe58291,
  0xe59d91, 0xe9bcbb, 0xe7bfbc, 0xe7b6b8, 0xe69598, 0xe78d84, 0xe980ae, 0xe7bd90,
  0xe7b5a1, 0xe6a39a, 0xe68a91, 0xe886a8, 0xe894ac, 0xe5afba, 0xe9a99f, 0xe7a986,
  0xe586b6, 0xe69eaf, 0xe5868a, 0xe5b18d, 0xe587b8, 0xe7b4b3, 0xe59daf, 0xe78aa7,
  0xe784b0, 0xe8bd9f, 0xe6aca3, 0xe69989, 0xe798a6, 0xe7a6a6, 0xe98ca0, 0xe98ca6,
  0xe596aa, 0xe697ac, 0xe98d9b, 0xe5a39f, 0xe6909c, 0xe692b2, 0xe98280, 0xe4baad,
  0xe985af, 0xe98281, 0xe88892, 0xe88486, 0xe985b6, 0xe99692, 0xe68682, 0xe9859a,
  0xe9a091, 0xe7bebd, 0xe6bcb2, 0xe58db8, 0xe4bb97, 0xe999aa, 0xe997a2, 0xe687b2,
  0xe69dad, 0xe5a79a, 0xe8829a, 0xe68d89, 0xe9a384, 0xe6bc82, 0xe69886, 0xe6acba,
  0xe590be, 0xe9838e, 0xe783b7, 0xe6b181, 0xe591b5, 0xe9a3be, 0xe895ad, 0xe99b85,
  0xe983b5, 0xe981b7, 0xe78795, 0xe69292, 0xe5a7bb, 0xe8b5b4, 0xe5aeb4, 0xe785a9,
  0xe582b5, 0xe5b8b3, 0xe69691, 0xe988b4, 0xe697a8, 0xe98687, 0xe891a3, 0xe9a485,
  0xe99b9b, 0xe5a7bf, 0xe68b8c, 0xe58285, 0xe885b9, 0xe5a6a5, 0xe68f89, 0xe8b3a2]
private def zhHant15 : List Nat := [
  0xe68b86, 0xe6adaa, 0xe891a1, 0xe883ba, 0xe4b89f, 0xe6b5a9, 0xe5bebd, 0xe69882,
  0xe5a28a, 0xe6938b, 0xe8a6bd, 0xe8b2aa, 0xe685b0, 0xe7b9b3, 0xe6b1aa, 0xe6858c,
  0xe9a6ae, 0xe8abbe, 0xe5a79c, 0xe8aabc, 0xe58587, 0xe58aa3, 0xe8aaa3, 0xe88080,
  0xe6988f, 0xe8baba, 0xe79b88, 0xe9a88e, 0xe596ac, 0xe6baaa, 0xe58fa2, 0xe79ba7,
  0xe68ab9, 0xe682b6, 0xe8abae, 0xe588ae, 0xe9a795, 0xe7ba9c, 0xe6829f, 0xe69198,
  0xe989ba, 0xe693b2, 0xe9a097, 0xe5b9bb, 0xe69f84, 0xe683a0, 0xe68598, 0xe4bdb3,
  0xe4bb87, 0xe88798, 0xe7aaa9, 0xe6bb8c, 0xe58a8d, 0xe79ea7, 0xe5a0a1, 0xe6bd91,
  0xe894a5, 0xe7bda9, 0xe99c8d, 0xe69288, 0xe8838e, 0xe892bc, 0xe6bfb1, 0xe58086,
  0xe68d85, 0xe6b998, 0xe7a08d, 0xe99c9e, 0xe982b5, 0xe89084, 0xe7988b, 0xe6b7ae,
  0xe98182, 0xe7868a, 0xe7b39e, 0xe78398, 0xe5aebf, 0xe6aa94, 0xe68888, 0xe9a781,
  0xe5ab82, 0xe8a395, 0xe5be99, 0xe7aead, 0xe68d90, 0xe885b8, 0xe69290, 0xe69bac,
  0xe8bea8, 0xe6aebf, 0xe893ae, 0xe694a4, 0xe694aa, 0xe986ac, 0xe5b18f, 0xe796ab,
  0xe59380, 0xe894a1, 0xe5a0b5, 0xe6b2ab, 0xe79aba, 0xe69aa2, 0xe7968a, 0xe996a3,
  0xe8908a, 0xe695b2, 0xe8bd84, 0xe989a4, 0xe79795, 0xe5a3a9, 0xe5b7b7, 0xe9a493,
  0xe7a68d, 0xe4b898, 0xe78e84, 0xe6ba9c, 0xe69bb0, 0xe9828f, 0xe5bdad, 0xe59897,
  0xe58dbf, 0xe5a6a8, 0xe88987, 0xe5909e, 0xe99f8b, 0xe680a8, 0xe79fae, 0xe6ad87]

/-- Words 2048, src/words/catalogs/mnemonic.cpp:18524-20577. -/
def zhHant : List Nat :=
  (zhHant0 ++ (zhHant1 ++ (zhHant2 ++ (zhHant3 ++ (zhHant4 ++ (zhHant5 ++ (zhHant6 ++ (zhHant7 ++ (zhHant8 ++ (zhHant9 ++ (zhHant10 ++ (zhHant11 ++ (zhHant12 ++ (zhHant13 ++ (zhHant14 ++ (zhHant15))))))))))))))))

end Verif.Catalog
